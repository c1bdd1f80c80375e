#!/usr/bin/env python3
# Generates properties.jsonl (kept as a script so that the list stays easy to edit).
import json
P = []
def p(title, statement, quantifier, why, *anchors):
    P.append(dict(id="C%02d" % (len(P)+1), title=title, statement=statement,
                  quantifier=quantifier, why_tests_cant=why, anchors=list(anchors)))

p("Field set/get round trip",
  "After calling a generated setter with a value that fits the declared bit width, the corresponding generated getter returns exactly that value.",
  "every struct layout a schema can declare (any field type, bit offset, bit width 1..width of type), every previous buffer content, every value representable in the field",
  "the tests fix byte offset 0 or bit-aligned fields; there are 64 widths x unboundedly many offsets x 2^64 values",
  "src/archive.rs define_struct!", "src/bytewriter.rs write_bytes!", "src/bytereader.rs read_bytes!", "src/helper.rs masked!, num_bytes!, extend_sign!")
p("Setting a field does not disturb its neighbours",
  "A generated setter changes no bit of the struct outside the bit range of that field, hence every other (non-overlapping) field reads as before.",
  "every layout, every buffer content, every value accepted by the setter's type",
  "needs all pairs of fields, all buffers and all values",
  "src/archive.rs define_struct!", "src/bytewriter.rs write_bytes!")
p("Signed values wrap inside their field",
  "Setting a signed field to any value of its Rust type stores the value modulo 2^bits and leaves all other bits unchanged; reading gives the two's complement sign extension.",
  "every signed type, offset, width, value and previous buffer content",
  "value and layout space is unbounded; sign extension depends on every width",
  "src/bytewriter.rs write_bytes!", "src/helper.rs extend_sign!")
p("Platform independent layout",
  "The bytes produced by setters and the values produced by getters are the same on little- and big-endian hosts, and bit k of a field at bit offset o is stored in bit (o+k) mod 8 of byte (o+k)/8.",
  "every layout, buffer, value and both host byte orders",
  "tests run on one host byte order only",
  "src/bytewriter.rs write_bytes!", "src/bytereader.rs read_bytes!")
p("Accessors stay inside their struct",
  "Getters and setters of a declared field access only the SIZE_IN_BYTES bytes of their struct: no out-of-bounds access, no panic, whatever value is passed.",
  "every declared field inside the struct, every buffer content, every value, including values too big for the field",
  "out-of-bounds reads are silent in tests; all layouts and values must be covered",
  "src/archive.rs define_struct!", "src/bytereader.rs read_bytes!", "src/bytewriter.rs write_bytes!")
p("Fresh struct buffers are zero",
  "Every field of a new StructBuf, of a Vector created with_len, and of a freshly grown element of Vector, ExternalVector or MultiVector reads as zero, whatever was written to other elements before.",
  "every struct definition, every history of in-bounds writes before the growth",
  "depends on the padding bytes never having been dirtied by any earlier history",
  "src/structbuf.rs StructBuf::new", "src/vector.rs Vector::with_len, Vector::grow, ExternalVector::grow", "src/archive.rs define_variadic_struct!")
p("fill_from copies a struct",
  "After dst.fill_from(src) every field of dst reads the same as in src and dst == src; no bit of dst outside the declared fields changes; filling twice is the same as filling once.",
  "every layout with non-overlapping fields, every source and destination content",
  "all contents of both buffers and all layouts",
  "src/archive.rs define_struct! fill_from")
p("Struct equality is field equality",
  "Two struct references compare equal exactly when the bits of all declared fields agree; padding bits are ignored; equality is an equivalence relation. References to variadic structs are equal if they refer to the same type and to equal structs.",
  "every layout and every pair (triple) of buffer contents",
  "quantifies over all pairs of contents",
  "src/archive.rs define_struct! PartialEq")
p("Enum fields",
  "A field declared with an enum type returns the enum variant last written; reading it never produces a value that is not a variant of the enum.",
  "every enum with any underlying integer type, every layout, every stored content",
  "stored data may come from any file; all contents must be considered",
  "src/archive.rs define_struct! transmute")
p("Vector behaves like a list of structs",
  "After any sequence of new/with_len, grow, reserve and writes through at_mut/grow handles, len, at, as_view and as_bytes agree with a plain list of elements to which the same operations were applied.",
  "every struct size, every finite history of operations with in-range indices",
  "histories are unbounded",
  "src/vector.rs Vector")
p("Vector indexing out of range is detected",
  "Vector::at and Vector::at_mut with an index >= len() panic instead of handing out a reference outside the vector.",
  "every struct size, vector length and index",
  "out-of-bounds indices form an unbounded set; a passing test of one index says nothing about others",
  "src/vector.rs Vector::at, Vector::at_mut")
p("ArrayView::at bounds check",
  "ArrayView::at(i) returns element i if i < len() and panics otherwise (documented '# Panics').",
  "every data slice, struct size, index, and both overflow-checking and wrapping builds",
  "index space is 2^64 and behaviour depends on arithmetic overflow",
  "src/arrayview.rs ArrayView::at")
p("ArrayView::slice is list slicing",
  "Slicing a view by any range gives the view of exactly the elements in that range and panics exactly when the range is not within 0..=len or start > end.",
  "every view, every combination of included/excluded/unbounded bounds",
  "all range kinds x all indices x all data",
  "src/arrayview.rs ArrayView::slice")
p("ArrayView iteration is a deque",
  "Iterating a view with any interleaving of next and next_back yields every element exactly once, from the front resp. from the back; len() is always the exact remaining number, and after exhaustion both return None forever.",
  "every view and every finite interleaving of next/next_back",
  "interleavings are unbounded",
  "src/arrayview.rs ArrayViewIter")
p("Debug preview",
  "Formatting a view, vector or iterator with {:?} shows the exact length, the first min(len,10) elements in order and an ellipsis exactly if there are more than 10; a struct is shown with the values of all its fields in order; an ExternalVector or MultiVector with the number of elements added; a resource handle with its state.",
  "every view / iterator state, every struct content and history",
  "all lengths and iterator states",
  "src/arrayview.rs debug_format", "src/multiarrayview.rs debug_format", "src/lib.rs DEBUG_PREVIEW_LEN")
p("Storage write/read round trip",
  "After storage.write(name, schema, data) returned Ok on a storage where name is new, storage.read(name, schema) returns exactly data.",
  "both storages, every name, schema and byte string, every prior content of the storage",
  "all byte strings and all storage states",
  "src/storage.rs ResourceStorage::write, read, read_and_check_schema", "src/memstorage.rs", "src/filestorage.rs")
p("Read integrity check",
  "read(name, schema) succeeds exactly when the stored bytes are an 8-byte little-endian size, that many payload bytes and 8 more bytes, and the stored schema equals the expected schema byte for byte; then it returns the payload. For all other stored bytes an error is returned and never wrong data, and it never panics.",
  "every stored byte string for data and schema (including corrupted, truncated or extended ones), both build profiles",
  "all possible corruptions",
  "src/storage.rs read_and_check_schema")
p("Schema mismatch is reported with a faithful diff",
  "If a resource is intact but its stored schema is valid UTF-8 and differs from the expected schema, reading fails with WrongSignature carrying the resource name and a line diff from which both the stored and the expected schema lines can be recovered; invalid UTF-8 gives Utf8Error; a missing resource or schema gives an Io error with the resource name.",
  "every pair of schemas, every storage state",
  "all pairs of strings",
  "src/storage.rs read_and_check_schema, compute_diff", "src/error.rs")
p("Crash safety of whole-resource writes",
  "If the process dies (or the disk fails) at any point during storage.write, a later read of that resource by a new process either fails or returns the complete new data (or the complete old data if the file was not yet truncated); never a part.",
  "every crash point down to single bytes, every data, schema and previous content",
  "crash points x contents",
  "src/storage.rs ResourceStorage::write, write_to_stream", "src/filestorage.rs create_output_stream")
p("Crash safety of incrementally written resources",
  "If the process dies at any point while an ExternalVector or MultiVector is being written, a later read of the resource either fails or returns all data of the closed vector; never a part of it ('it is not possible to open partially written archive').",
  "every crash point down to single bytes, every sequence of elements and flushes",
  "crash points x histories",
  "src/storage.rs ResourceHandle::try_new, write, close", "src/vector.rs ExternalVector", "src/archive.rs Archive::open docs")
p("ExternalVector writes the list of its elements",
  "For every sequence of grow/fill operations followed by close, the view returned by close and any later read of the resource contain exactly the grown elements in order, independent of when the internal buffer was flushed; len() counts the grow calls.",
  "both storages (on disk with a non-empty schema, see C16), every struct size, every number and content of elements, every flush schedule",
  "the flush path needs more than 32 MiB of data and is never reached in tests",
  "src/vector.rs ExternalVector", "src/storage.rs create_external_vector, ResourceHandle")
p("ExternalVector under I/O faults",
  "Whatever I/O calls fail (with any partial progress) and however often grow is retried: if close returns a view, the view contains exactly the elements of the successful grow calls in order.",
  "every schedule of I/O failures with arbitrary partial writes, every history",
  "failure schedules cannot be enumerated by tests",
  "src/vector.rs ExternalVector::grow, flush, close", "src/storage.rs ResourceHandle::write, close")
p("I/O errors on close are returned",
  "ExternalVector::close and MultiVector::close report an I/O failure as Err(ResourceStorageError::Io) to the caller.",
  "every failing I/O call inside close, every state of the vector",
  "fault schedules",
  "src/vector.rs ExternalVector::close", "src/multivector.rs MultiVector::close", "src/storage.rs Drop for ResourceHandle")
p("Bounded buffering",
  "While elements are appended to an ExternalVector or MultiVector its in-memory buffer never exceeds 32 MiB plus one element (one item for MultiVector).",
  "every history of grow operations",
  "needs histories longer than 32 MiB",
  "src/vector.rs ExternalVector::grow", "src/multivector.rs MultiVector::grow")
p("Unclosed resources are detected",
  "Dropping an external vector or multivector that was not closed panics; after a successful close dropping never panics; grow and close on a closed handle are errors, not data loss.",
  "every state of a resource handle",
  "all histories leading to the drop",
  "src/storage.rs ResourceHandle::drop, write, close")
p("MultiVector round trip",
  "For every sequence of items, each a list of variants with their struct contents, reading the closed multivector gives the same number of items and, for each item, the same list of variants with the same contents, including empty items.",
  "every index width, variadic definition, sequence of items and flush schedule",
  "unbounded histories, flush path never reached in tests",
  "src/multivector.rs", "src/multiarrayview.rs", "src/archive.rs define_variadic_struct!, define_index!")
p("MultiVector index is a monotone partition",
  "The index resource has one more entry than items; entries start at 0, never decrease, and the last one is the length of the data resource; consecutive entries delimit the items.",
  "every sequence of items",
  "all histories",
  "src/multivector.rs add_to_index, close")
p("MultiArrayView access and iteration",
  "at(i) yields item i for i < len() and panics otherwise; slice is list slicing on items; iteration with any interleaving of next/next_back is a deque over the items with exact len().",
  "every well-formed multi array view, every index, range and interleaving",
  "unbounded interleavings and sizes",
  "src/multiarrayview.rs")
p("Item iteration over untrusted bytes is memory safe",
  "Iterating the elements of an item over arbitrary bytes terminates and either yields elements lying completely inside the item or panics; it never hands out a reference reaching beyond the item.",
  "every byte string, index and variadic definition",
  "all corrupt inputs",
  "src/multiarrayview.rs MultiArrayViewItemIter::next", "src/archive.rs define_variadic_struct! create")
p("Creating an archive never overwrites one",
  "ArchiveBuilder::new returns an AlreadyExists error and leaves the storage unchanged if the archive signature exists in the storage; otherwise it creates it, so a second builder on the same storage fails.",
  "every storage state, both storages",
  "all storage states",
  "src/storage.rs create_archive", "src/archive.rs ArchiveBuilder::new")
p("Archive::open accepts exactly the complete archives",
  "open succeeds exactly when the archive signature and every non-optional resource (both index and data for multivectors) are readable with their expected schema and every non-optional subarchive opens; optional resources that are not readable are None; open modifies no stored data.",
  "every archive definition (nested to any depth), every storage content",
  "definitions and storage contents are unbounded",
  "src/archive.rs define_archive! open, check_resource!")
p("Archive round trip",
  "Building an archive where the places of its files are free (the directory may contain other files) by writing its resources in any order (optional ones may be left out), then opening it from the same storage or, on disk, in a later process, succeeds, and every accessor returns exactly what was written. Limits covered by other properties: subarchives in memory (C33), multivector data beyond the range of the index type (C26), empty schemas on disk (C38).",
  "every archive definition, every content, every order of resource writes, both storages",
  "unbounded definitions, contents, orders",
  "src/archive.rs define_archive!", "src/storage.rs", "src/filestorage.rs", "src/memstorage.rs")
p("Subarchives are stored with their parent",
  "A subarchive written through the builder of its parent is found again when the parent is opened from the same storage.",
  "both storages, every nesting",
  "all nestings and contents",
  "src/memstorage.rs subdir", "src/filestorage.rs subdir", "src/archive.rs define_archive!")
p("Rewriting a resource: last write wins",
  "Writing a resource again replaces its content; the next read returns the content written last.",
  "both storages, every history of writes and reads of a name",
  "histories are unbounded; depends on caches",
  "src/memstorage.rs create_output_stream, read_resource", "src/filestorage.rs create_output_stream, MemoryMappedFileStorage::read")
p("Views are stable",
  "A slice obtained from a storage keeps its content for as long as the storage lives, whatever other operations are performed on the storage.",
  "every later history of storage operations",
  "all histories",
  "src/memstorage.rs read_resource", "src/filestorage.rs MemoryMappedFileStorage::read")
p("Reads do not interfere with a resource being written",
  "Reading a resource that is still being written returns an error and does not affect the final result of closing and reading it.",
  "every point of the write history at which a read is attempted, both storages",
  "interleavings",
  "src/memstorage.rs read_resource", "src/storage.rs ResourceHandle::close")
p("Resources are independent",
  "Operations on one resource never change what is read from a resource with a different name, nor a vector being written under another name.",
  "both storages, every pair of distinct plain names, every operation",
  "all pairs and states",
  "src/storage.rs", "src/memstorage.rs", "src/filestorage.rs")
p("Memory and file storage are interchangeable",
  "For a history that writes every resource at most once before reading it, MemoryResourceStorage and FileResourceStorage give the same results for every exists, write and read call.",
  "every such history with non-empty schemas on a fault-free disk",
  "differential property over all histories",
  "src/memstorage.rs", "src/filestorage.rs")
p("Struct resources of an opened archive are safe to access",
  "After a successful open, reading any field of a struct resource accesses only the bytes of that resource.",
  "every archive content accepted by open",
  "all (possibly corrupt or foreign) contents",
  "src/archive.rs define_archive! struct getter", "src/storage.rs read_and_check_schema")
p("Copying an archive is byte-exact",
  "Copying structs, vectors and multivectors element by element with fill_from reproduces the resource bytes exactly when the struct definitions cover all bits or the unused bits are zero in the source.",
  "every struct definition and source content",
  "all contents",
  "src/archive.rs fill_from", "tests/coappearances_test.rs copy_coappearances_archive")
p("The files of an archive are determined by its content",
  "After building an archive where the places of its files are free (in memory: an archive without subarchives) the storage contains exactly these files besides those that were there before: for every resource written its size as 8 little-endian bytes, its data and 8 zero bytes; beside it a file name.schema with the schema text; for a multivector the index with the start of every item and the end of the last one, and the items as type tag and struct; the empty signature resource name.archive; subarchives likewise in subdirectories. Neither the order of the builder calls, nor the byte order of the machine, nor the build profile, nor how a resource was provided (whole or incrementally), nor the storage matters.",
  "every archive definition with distinct plain names, every content, every program of builder calls that writes it",
  "all definitions, contents and programs; other implementations of the format rely on every byte",
  "src/storage.rs write", "src/archive.rs define_archive! builder", "src/vector.rs ExternalVector", "src/multivector.rs")
p("Building an archive touches no other files",
  "A program that builds an archive changes no file except those of the content it writes, whether it succeeds or fails, whatever is stored already.",
  "every archive definition and program, every state of the storage, every I/O fault",
  "all states, programs and fault positions",
  "src/archive.rs define_archive! builder", "src/storage.rs", "src/filestorage.rs", "src/memstorage.rs")
p("Debug output of an archive",
  "Formatting an opened archive with {:?} shows its name and then, for every resource in the order of declaration, its name and content as the corresponding accessor shows it (None for optional resources that are missing), separated by commas, subarchives likewise; it neither panics nor touches foreign memory.",
  "every archive definition and showable content, any history by which it was built",
  "all definitions and contents",
  "src/archive.rs define_archive! Debug", "src/helper.rs intersperse!")
p("Interrupted building of an archive is noticed",
  "If the program that builds an archive where the places of its files are free is interrupted anywhere, by an I/O error or because the process ends, then a process that opens the archive later gets an error, or every accessor shows the complete content that was to be written, optional resources and subarchives possibly missing; opening does not panic. No accessor shows a part of a resource, or an empty one that was to have a content.",
  "every archive definition with distinct plain names, content, program of builder calls and position of the interruption",
  "all positions of a crash within all programs",
  "src/storage.rs write", "src/storage.rs ResourceHandle", "src/vector.rs ExternalVector", "src/multivector.rs", "src/archive.rs define_archive! builder", "src/filestorage.rs")
p("Iterators work with the adapters of the standard library",
  "The iterators over array views and multi array views yield the elements from the front and from the back and know how many are left, whatever mixture of calls came before; size_hint is exact, as ExactSizeIterator demands. So loops, collect, nth, rev, map, enumerate, take, skip and zip give the results they have on the list of elements, and none of them panics.",
  "every struct size or variadic type, every view, every chain of adapters",
  "all views, positions and chains of adapters",
  "src/arrayview.rs ArrayViewIter", "src/multiarrayview.rs MultiArrayViewIter")
p("Debug and release builds behave the same",
  "A program that uses the library and does not panic in a debug build (overflow checks and debug assertions on) does exactly the same in a release build: every call returns the same value or error and the storage is left in the same state.",
  "every program calling any functions of the library and reacting to their results, any storage and state of it",
  "relates two builds on all programs; tests run in one build on samples",
  "src/arrayview.rs", "src/vector.rs", "src/multivector.rs", "src/multiarrayview.rs", "src/storage.rs", "src/archive.rs", "src/bytereader.rs", "src/bytewriter.rs")
p("The byte order of the host does not matter",
  "A program that uses the library does exactly the same on little-endian and big-endian hosts: every call returns the same value, error or panic, and the storage is left with the same bytes.",
  "every program calling any functions of the library and reacting to their results, any storage and state of it, both build profiles",
  "relates two machines on all programs; tests run on one machine",
  "src/bytereader.rs", "src/bytewriter.rs", "src/storage.rs write_size", "src/archive.rs define_struct!, define_index!")
p("Programs that respect the known limits are memory safe",
  "A program that calls functions of the library in any order and reacts to their results never reads or writes outside the memory it may use, whatever I/O operations fail, provided it respects these limits: a file that is mapped is not rewritten; references from at and at_mut beyond the length of a vector are not used; structs are read only from memory of at least their size and with valid enum values; index types of multivectors are proper. Data that was read stays accessible; handles, vectors, builders and archives returned by the library can be used in all later calls without further conditions.",
  "every program, any state of a process on both storages, any failures of I/O operations, both build profiles and byte orders",
  "tests run samples and do not observe undefined behaviour",
  "src/arrayview.rs", "src/vector.rs", "src/multivector.rs", "src/multiarrayview.rs", "src/storage.rs", "src/filestorage.rs", "src/memstorage.rs", "src/archive.rs", "src/bytereader.rs", "src/bytewriter.rs")
p("Errors tell what is wrong",
  "If no system call fails, the error of a failing read or open belongs to the defect of the stored files: a resource that is missing or cannot be read gives Io with its name (of kind NotFound if it is missing), a resource without schema gives MissingSchema with its name, data whose length does not fit the stored size give UnexpectedDataSize, a schema that is not UTF-8 gives Utf8Error, another schema gives WrongSignature with the name of the resource and a diff showing both; description() says so in words. open reports the first defect in the order of the definition: the signature, the required resources, the required subarchives; it never reports optional ones. Whatever fails, an error of read names the resource asked for, an error of open a resource of the archive, an error of a builder its signature.",
  "every archive definition, every content of the storage, both storages and build profiles",
  "all combinations of defects in all archive definitions",
  "src/error.rs", "src/storage.rs read_and_check_schema, create_archive", "src/archive.rs define_archive! open, check_resource!")
p("Archives side by side do not affect each other",
  "Two archives that have no file in common, be it in directories of their own, in different memory storages, or in one directory with different names, do not affect each other: whatever happens while one is built, even if it fails, the stored files of the other are unchanged, opening it afterwards has the outcome determined by its own files, and what an archive opened before gives access to stays the same. After both have been built, both are found as they were written.",
  "every pair of archive definitions with nested archives, every building program, any outcome of it, any contents, both storages and build profiles",
  "all pairs of archives and all states of the storage, including failures in between",
  "src/archive.rs define_archive! open, builder", "src/storage.rs create_archive, write, read", "src/filestorage.rs", "src/memstorage.rs")
p("An archive can be opened while another process builds it",
  "If a process opens an archive on disk while another process is building it where the places of its files are free, then, however the system calls of the two interleave and wherever the building process stops, opening returns an error, or every accessor shows, from then on and forever, the complete content that is being written, optional resources and subarchives possibly missing; nothing panics and no access leaves a mapped file. No accessor shows a part of a resource, or an empty one that is to have a content.",
  "every archive definition with distinct plain names, content, program of builder calls and interleaving of the two processes, any I/O faults of the reading process",
  "all interleavings of two processes, down to single bytes of a write",
  "src/storage.rs write, read_and_check_schema", "src/storage.rs ResourceHandle", "src/vector.rs ExternalVector", "src/multivector.rs", "src/archive.rs define_archive! open, builder", "src/filestorage.rs")
p("Fields may be declared wider than their type",
  "A field that is declared wider than its Rust type (which define_struct! does not reject) holds every value of the type: what is set is got back and no bit outside the field changes.",
  "every type, offset, width up to 64, buffer content and value of the type, both build profiles and byte orders",
  "all widths, offsets, buffers and values; the tests declare no such field",
  "src/archive.rs define_struct!", "src/helper.rs extend_sign!", "src/bytereader.rs read_bytes!", "src/bytewriter.rs write_bytes!")
p("Archives can be built at the same time by different processes",
  "While a process builds an archive on disk where its places are free, any number of other processes may build archives that have no file in common with it, in other directories or in the same one, however the system calls of all of them interleave and wherever the others fail or stop: the process succeeds, its files are at any later time what they would be had it been alone, and a process that opens the archive later finds what was written, while the others go on.",
  "every archive definition with distinct plain names, content and program of builder calls, any number of other processes, every interleaving of system calls, any failures of the others",
  "all interleavings of all processes; tests build one archive at a time",
  "src/storage.rs create_archive, write", "src/storage.rs ResourceHandle", "src/filestorage.rs create_output_stream, read_resource", "src/archive.rs define_archive! open, builder")
p("Only one process can create an archive",
  "If two processes build the same archive (in the same directory), at most one of them succeeds; the other one gets an error of kind AlreadyExists and changes nothing.",
  "every archive definition, any contents and programs of builder calls of the two, every interleaving of their system calls",
  "all interleavings of two processes; tests create archives one after the other",
  "src/storage.rs create_archive", "src/archive.rs define_archive! builder")
p("An archive can be moved and copied",
  "Opening an archive on disk depends only on the content of its own files, not on where its directory is nor on what else is stored there: after the directory has been renamed, copied to another place or disk, or other files have been added to it or removed, a process that opens it gets the same error as before or an archive whose accessors show the same data.",
  "every archive definition with nested archives and distinct plain names, every content of its files (complete or not), any two directories, any failures of I/O operations in the same places, both build profiles and byte orders",
  "all pairs of directories and all contents of the files",
  "src/filestorage.rs", "src/storage.rs read_and_check_schema", "src/archive.rs define_archive! open")
p("Opening and reading change nothing and can be repeated",
  "Opening an archive or reading a resource, successful or not, writes nothing: all files and directories (in memory: all stored resources), and all streams that are being written, stay as they are, and data seen before remain. As long as only such operations are performed, opening an archive or reading a resource again through the same storage object gives the same error or the same data, and exists() the same answer. If an operation failed because of an I/O error, then after the error has gone it gives what it would have given without it.",
  "both storages, every state of a process, every archive definition and resource, any number of operations that read in between, any failures of I/O operations",
  "all states and all sequences of operations with all failures",
  "src/filestorage.rs read_resource, MemoryMappedFileStorage", "src/memstorage.rs read_resource", "src/storage.rs read_and_check_schema", "src/archive.rs define_archive! open")
p("Data are shown only under the schema under which they have been written",
  "Whoever opens an archive, with whatever definition, sees only data that have been written, under the path, name and schema under which they have been written: data written for one schema are never interpreted with another. Opening an archive with a definition that has another name or another schema is an error. This remains true if other archives are built in the same directory, successfully or not.",
  "every two or three archive definitions with nested archives and distinct plain names without dots, every content and program of builder calls, both storages, any failures of I/O operations, both build profiles and byte orders",
  "all pairs of definitions and all contents; tests open archives with the definition that wrote them",
  "src/storage.rs write, read_and_check_schema", "src/archive.rs define_archive! open, builder", "src/multivector.rs")
p("Opening does not look at the data",
  "Whether an archive opens, the error if not, and where its resources lie depend only on the schemas, on the lengths of the files and on their size fields (the first eight bytes): if data or padding change, opening gives the same result. Opening makes at most six calls to the operating system for each resource of the definition, reading a resource at most six, however large they are. Appending to a vector on disk makes at most one call for each 32 MiB (less seven bytes) of appended data, appending to a multivector at most one for each 32 MiB (less seven bytes) of index and data. Writing a resource makes at most 10 calls, creating a vector or multivector at most 8 or 16, closing one at most 10 or 21, however large they are.",
  "both storages, every state of a process, any two states that differ in data only, every archive definition and resource, any failures of I/O operations, any number of elements",
  "all pairs of contents and all sizes; that data are not looked at cannot be seen from any single run",
  "src/storage.rs read_and_check_schema", "src/filestorage.rs read_resource, MemoryMappedFileStorage", "src/memstorage.rs read_resource", "src/archive.rs define_archive! open", "src/vector.rs ExternalVector::grow")
p("Archives can be read on hosts with a narrower usize",
  "On a host where usize has fewer than 64 bits, reading a resource, opening an archive and looking at views and multi views gives the same as on a 64-bit host, as long as the host can count the bytes: the same data, the same errors, the same panics.",
  "every number of values of usize up to 2^64, both storages, every content shorter than that number, every archive definition, every index and slice, any failures of I/O operations, both build profiles and byte orders",
  "the tests run on one host; all widths, contents, size fields and indices",
  "src/storage.rs read_and_check_schema", "src/archive.rs define_index! index, define_archive! open", "src/arrayview.rs", "src/multiarrayview.rs")
p("Dynamic borrow checks do not fail",
  "The `RefCell`s inside the storages and around the streams never make a call of the library panic: a program sees the same results as if there were no borrow checks, and after each call nothing is left borrowed. This holds also if the program keeps a guard of one of its streams while it calls a storage.",
  "all programs (sessions of any length that depend on what they see), all storage objects, names, data, states, host byte orders, build profiles; all borrow flags of the streams",
  "A conflict of borrows depends on which guards are alive when one method calls another, on errors in the middle of a method, and on which resources were read before; tests run a few orders of calls on one thread and none with a guard kept.",
  "src/storage.rs:43-53", "src/storage.rs:279-345", "src/memstorage.rs:57-108", "src/filestorage.rs:15-31", "src/filestorage.rs:55-89")
p("References never outlive their memory",
  "A reference that safe code gets from the library, to a storage or to bytes of a resource, points to memory that is not freed while the reference can be used: not by dropping or moving storages, archives, subarchives or builders in any order, by cloning them, by opening archives that fail half way, or by reading the same resource again. Its bytes change only if another process writes to the file. A storage and what it has read are freed exactly when nobody owns the storage any more: nothing is freed twice, nothing is kept.",
  "all programs of any length that the compiler accepts (what is borrowed from a variable ends before the variable is dropped or moved), all archive definitions with nested archives, all answers of the environment to every request (contents, failures), host byte orders, build profiles",
  "Descriptors in archives are raw pointers, and the storages extend lifetimes with unsafe code; the compiler checks neither. A dangling reference often still reads the old bytes, so a test that has one passes.",
  "src/storage.rs:222-257", "src/memstorage.rs:67-95", "src/filestorage.rs:20-32", "src/archive.rs:475-484", "src/archive.rs:589-650")
p("Vectors and multivectors are written right on hosts with a narrower usize",
  "On a host where usize has fewer than 64 bits, filling and closing an external vector or a multivector does the same as on a 64-bit host as long as the host can count the bytes and hold the buffer. What it cannot count it does not store wrongly: closing panics, or the stored resource has exactly the elements.",
  "every number of values of usize up to 2^64, every struct and variadic type, every history of grow, set, failed grow and other use of the storage, any number of bytes below 2^63, any failures of I/O operations, both storages, both build profiles and byte orders",
  "the tests run on one host and write a few bytes; overflow needs 4 GiB on a 32-bit host",
  "src/vector.rs:304-343", "src/multivector.rs:165-207", "src/archive.rs:369-377", "src/storage.rs:306-346")
p("I/O errors are returned to the caller",
  "A function that writes, reads or starts a resource or an archive ends with the first call of the storage or of a stream that fails, and returns the error of that call; if it returns success, all calls have succeeded. In particular such an error is never swallowed, replaced by another one or turned into a panic, and nothing is called after it. (Closing is C23, opening an archive C49.)",
  "every implementation of the trait ResourceStorage (whatever its calls return), every state, all names, schemas, data, structs, archive definitions, vectors and multivectors with an open handle, build profiles, host byte orders",
  "the tests have no storage that fails; each function makes several calls and each of them can fail",
  "src/storage.rs:43-53", "src/storage.rs:92-126", "src/storage.rs:138-220", "src/storage.rs:279-317", "src/archive.rs:660-728", "src/vector.rs:304-324", "src/multivector.rs:165-193")
p("Power failures",
  "After a power failure while an archive is being built on disk, or later, opening it is an error or the accessors show resources only with all of the data that were to be written; an optional resource may be missing. An archive whose building has succeeded is still there.",
  "every archive definition with distinct plain names and nested archives, every content and program of builder calls, any failures of I/O operations, every age of every single file (as it was at any moment of the run, even in the middle of a call), also if a file system loses single bytes within a file, both build profiles and byte orders",
  "no test can cut the power; every combination of ages of the files",
  "src/filestorage.rs create_output_stream", "src/storage.rs:43-53", "src/storage.rs:138-220", "src/storage.rs:321-346", "src/archive.rs:660-728")
p("Texts of errors",
  "The text of an error (`to_string()`) is one line and tells different errors apart, whatever characters names and schemas contain. The text of every error of reading a resource contains the name of the resource, in quotes; if the stored schema is another one the text shows the diff, with both schemas.",
  "all errors with any names and diffs, all storages, states, names, schemas, data, build profiles, host byte orders; every version of Rust's escaping of strings",
  "names and schemas are arbitrary texts with quotes, line feeds and characters that are not printable; a name may be made to look like the end of a message. The tests look at no message.",
  "src/error.rs:10-54", "src/storage.rs:92-126", "src/storage.rs:373-383")
p("Directories whose names are not text",
  "An archive can be built in a directory whose path is any string of bytes, not necessarily UTF-8, and opened there with the content that was written, as in any other directory.",
  "every path, every set of bytes that are not part of valid UTF-8, every archive definition with distinct plain names (which are text), every content and program of builder calls, both build profiles and byte orders",
  "the tests use directories with plain names; what is wrong with a name appears only when the archive is read",
  "src/filestorage.rs:63-79", "src/filestorage.rs:81-89", "src/storage.rs:321-346")
p("A panic does not abort the process",
  "A panic, of the client or of the crate, at any time while handles, external vectors and multivectors are open anywhere on the stack, unwinds the thread and can be caught; it never becomes an abort because a destructor of the crate panics in turn. A scope that is left normally panics exactly if a value in it is still open, at most once. A vector that a destructor of the client closes while the thread unwinds behaves as usual, and where closing would panic it returns the error.",
  "every stack of scopes with any handles and vectors in any states, every interleaving of calls, panics, drops and catch_unwind; for closing: every vector and multivector built in any way under any I/O faults, both storages, build profiles, byte orders",
  "an abort kills the test runner, so no test observes one; it needs a second panic during unwinding, with several values open in the right order",
  "src/storage.rs:353-360", "src/vector.rs:336-343", "src/multivector.rs:199-207", "src/storage.rs:163-187")
p("What reserve promises",
  "After Vector::reserve(k) has returned, k elements can be added without any further allocation and without a panic; if there is room for k more elements already, it does nothing; asking again for no more does nothing; elements are never touched.",
  "every struct size, every vector with any elements and capacity, every k, every way in which Vec may choose capacities, every width of usize, both build profiles",
  "needs numbers near the limits of usize, and allocations are invisible to the tests",
  "src/vector.rs:109-118", "src/vector.rs:135-140", "src/vector.rs:159-161")
p("Vectors on 32-bit hosts",
  "A Vector behaves like a list of structs on hosts with any width of usize: after with_len(n) and any history of operations on existing elements, len, as_bytes and at agree with the list; the bytes depend neither on the host nor on the allocator nor on reservations; every history whose elements and reservations stay below isize::MAX succeeds.",
  "every width of usize, every struct size, every n and history, every way in which Vec may choose capacities, both build profiles and byte orders",
  "the tests run on one host, with a handful of elements",
  "src/vector.rs:75-161")
p("Few files are open at the same time",
  "Building an archive, however large, needs at most three files open at the same time, opening one needs one, and an opened archive keeps none open: with so many file descriptors to spare, every program behaves as if there were no limit. Setters need two, an open external vector keeps one, an open multivector two. Whatever happens, errors, panics and running out of descriptors included, every file is closed in the end.",
  "every archive definition with any number of resources and nested subarchives, every program of builder calls and every content, every state of the disk with any I/O faults, every number of descriptors, both build profiles and byte orders",
  "the limit of the operating system is far above what small test archives need, and a leaked descriptor is not visible in any result",
  "src/filestorage.rs:20-31", "src/filestorage.rs:81-89", "src/storage.rs:43-53", "src/storage.rs:138-187", "src/storage.rs:321-346", "src/archive.rs:589-650")
p("Files changed by others while a vector is being written",
  "Between creation and close of an external vector in a file, other processes may change, truncate or replace the contents of any file, and the program itself may create the same resource again, write to it through other streams or read it: if close returns a view nevertheless, the view shows exactly the elements that were grown. The same holds for the index and the data of a multivector and its items.",
  "every struct of positive size, every sequence of grown elements with failed grows in between, every interleaving with calls beside and changes from outside, every state of the disk with any I/O faults, both build profiles and byte orders",
  "it needs somebody else who changes the file between two calls, and the interesting vectors are larger than the buffer of 32 MiB",
  "src/vector.rs:304-343", "src/storage.rs:263-346", "src/storage.rs:90-135", "src/filestorage.rs:20-31")
p("A resource in memory that is started twice",
  "Between creation and close of an external vector in memory, others may create the same resource again and write to it, by which they get the same stream. As long as nobody reads the resource or closes another writer of it before: if close returns a view, it shows exactly the elements that were grown; close reports an unexpected size if and only if others have written at least one byte; after that every read of the resource reports an unexpected size, and no vector of it can be closed successfully, whatever else is done. In particular if the resource is started twice, neither of the two vectors can be closed successfully, in whatever order.",
  "every struct of positive size, every sequence of grown elements (less than 2^63 bytes), every interleaving with others who create, write or do anything beside the resource, both build profiles and byte orders, every schema",
  "it depends on which bytes of two writers are interleaved in the stream, and on everything that happens until the resource is read again",
  "src/memstorage.rs:59-107", "src/vector.rs:304-343", "src/storage.rs:90-135", "src/storage.rs:263-346")

if __name__ == "__main__":
    with open("/verif/properties.jsonl", "w") as f:
        for x in P: f.write(json.dumps(x) + "\n")
    print(len(P))
