# Formal model of flatdata-rs in Lean 4

## 1. Shape of the model

All modules are under `lean/Verif`.  `Model/*` holds the transcription of the code (each definition cites the
file and lines it models), `Spec/*` small independent specifications, `Proofs/*` helper lemmas and
`Props/*` the property theorems (one file per group of properties, nothing but statements, proofs by
helper lemmas, and non-vacuity examples).

| module | models |
|---|---|
| `Model/Prim`    | outcome of Rust code (`ok` / `panic` / `ub`), build profile (overflow-checked or wrapping), host endianness, `usize` arithmetic |
| `Model/IO`      | `error.rs`, effects (`Act`), `PathBuf::join` and path equality, names, UTF-8 |
| `Model/Bits`    | `helper.rs` macros, `read_bytes!`, `write_bytes!` |
| `Model/Struct`  | `define_struct!` (getters, setters, `PartialEq`, `Debug`, `fill_from`), `StructBuf`, enum fields, `define_index!` |
| `Model/View`    | `ArrayView`, its slice, iterator, debug preview |
| `Model/Vector`  | `Vector` |
| `Model/Storage` | the `ResourceStorage` trait: required methods as a structure `Backend`, default methods, `ResourceHandle` (with `Drop`, `Clone`, `Debug`), `create_archive`, `compute_diff` generically |
| `Model/MemStorage`, `Model/FileStorage` | the two implementations; the file one over a small file-system model with a fault oracle |
| `Model/ExtVector`, `Model/MultiVector`, `Model/MultiView` | `ExternalVector`, `MultiVector`, `define_variadic_struct!` with its builder, `MultiArrayView` and its iterators |
| `Model/Archive` | `define_archive!`: `open`, getters, builder operations, subarchives |
| `Model/Narrow`  | reading, opening, views and multi views once more, with the number of values of `usize` as a parameter |
| `Model/NarrowWrite` | external vectors, multivectors and their builders once more, with the same parameter |
| `Model/Borrow`  | the storages once more, with the flags of their `RefCell`s and every `borrow()` and `borrow_mut()` |
| `Model/Owner`   | the storages once more as owners of memory: `Rc` counts, maps, drops, archives with their `_storage` |
| `Model/Iter`    | the iterators of the views as `Iterator`, `DoubleEndedIterator`, `ExactSizeIterator`; the adapters of the standard library |
| `Model/OsPath`  | `FileResourceStorage` where paths need not be UTF-8 |
| `Model/Unwind`  | `Drop for ResourceHandle` with `thread::panicking()`; the functions that drop handles and vectors, in a thread that runs or unwinds |
| `Model/Capacity` | `Vector<T>` with the capacity of its `Vec` and the number of allocations, on hosts with any width of `usize` |
| `Model/OpenFiles` | the functions that open, own or close files, over the disk and the number of files that may still be opened |
| `Model/Debug`   | `Debug` of `StructBuf` and of archives |
| `Model/Coappearances`, `Model/CoappearancesArchive` | the schema of the repository's integration test, as data for examples |
| `Spec/Bits`, `Field`, `Struct`, `Vector`, `View`, `MultiView`, `Iter`, `Names` | bit layout, field values, lists of elements, items, iterators as lists, plain names |
| `Spec/World`, `Storage`, `History`, `ExtVector`, `MultiVector` | reachable states, stored bytes, histories of calls amid everything else |
| `Spec/Client`   | arbitrary programs that call the library |
| `Spec/Session`  | programs that see only what the library returns, so that they run with any storage |
| `Spec/Safe`     | what such programs must respect to be memory safe |
| `Spec/Owner`    | clients that own storages, archives and builders, and borrow from them as the compiler permits |
| `Spec/Archive`, `Build`, `Program`, `Copy`, `Format`, `Interrupt`, `Debug`, `Messages` | complete archives, histories and programs that build or copy archives, file format, what remains after a crash, texts |
| `Proofs/*`      | lemmas only |
| `Props/*`       | the theorems named in `MANIFEST.json` (names begin with the property) and their examples |

Conventions: `&mut self` functions return the new value; every function that can panic or touch memory out of
bounds returns `Out α = ok a | panic | ub`.  `usize` is 64 bit (except in `Model/Narrow` and `Model/NarrowWrite`).  Machine arithmetic that can overflow goes through
`uadd/umul/usub` which take the build profile (`debug` panics, `release` wraps).
I/O is modelled by a state monad whose state survives panics and errors.

## 2. Plan per property

* **C01, C02, C03, C04, C05** bit extensionality: `write_bytes` and `read_bytes` are modelled on `BitVec 64`/`BitVec 8`
  and shown equal to a bit-by-bit specification (`bitAt`). The unrestricted C01, C02, C05 are *false* of the code
  (see section 3): negations are proved with witnesses and the positive theorem carries the exact guard (`_partial`).
* **C06** padding-is-zero invariant over histories.
* **C07, C08** from C01/C02 by induction over the list of fields.
* **C09** enum = integer field plus a set of discriminants; `transmute` of another value is `ub`.
* **C10** refinement to `List Bytes` over an arbitrary list of operations.
* **C11, C12** panic conditions, both build profiles; refuted parts with witnesses.
* **C13, C14, C15** refinement of views to `chunks`.
* **C16, C17, C18** symbolic execution of the generic default methods for both storages; `compute_diff` over an abstract
  `diff::lines` constrained only by its documented contract (third-party crate).
* **C19, C20** fault oracle: every I/O call may fail after any number of bytes; the disk state left by a fault is the
  disk state left by a crash at that point.
* **C21..C25** invariant of `ExternalVector` over arbitrary histories with faults.
* **C26, C27, C28, C29** codec of multivector items, index invariant.
* **C30, C31, C32, C33** interpreter of `define_archive!` over archive definitions (mutually recursive with subarchives). That
  building succeeds (`C32_build_succeeds`) is total correctness of building programs: `Proofs/Room` keeps the invariant that no
  directory is in the way of a file and no file in the way of a directory, `Proofs/Succeeds` runs the program.
* **C34..C38** state machine properties of both storages. Where C34 to C36 are false, `Props/Rewrite` says exactly what happens
  instead (`Proofs/Stale`: a slice that an object has read keeps its length, and does not fit the finished resource).
* **C39** negation by witness + partial theorem for resources written by the setter.
* **C40** from C07 with coverage of bits.
* **C41** the bytes of every file written by `Built` histories are given by a function `Spec/Format` of definition and content;
  determinism is a corollary.
* **C42** frame property of `buildArchive`, whatever its outcome (`Proofs/Frame`).
* **C44** what every prefix of a building program leaves on disk (`Proofs/Interrupt` for one resource, `Proofs/InterruptRun` for
  programs), opened by a new process.
* **C43** text of an opened archive as function of the content; refuted as wished (a leading comma), proved as it is.

* **C45** an iterator refines a list that is consumed from both ends (`Deque`); each adapter turns such iterators into such
  iterators, so the theorems compose for every chain.

* **C46, C47** a relation between runs under two profiles and byte orders (`Proofs/Agree`) that is a congruence for sequencing; every
  modelled function respects it, hence every client program (`Spec/Client`, a tree of calls).

* **C48** triples over both storages (`Proofs/Safe`: no undefined access, mapped files stay whole, what has been handed out stays
  accessible), one for every modelled function (`Proofs/SafePure`, `Safe`, `SafeArchive`).

* **C49** the defect of a stored resource is specified independently of the order of checks (`Spec/Error`); the errors of `read`
  follow from the verdict on the bytes, those of `open` by induction on the archive definition.
* **C50** a building run makes only calls away from the places of the other archive (`Proofs/Frame`); what an archive shows
  depends on its own files only (congruence), and every descriptor of an opened archive lies in one of them (`Proofs/Neighbours`).
* **C51** the run of the building process is cut into moments, one for every byte of every system call (`Spec/Shared`); what the
  reading process finds at its own calls are the files at moments that do not go back. While an archive is built every file only
  goes forward to what it is in the end: it is a prefix of it, except that of resources written step by step the size field comes
  last (`Proofs/Shared`: a stopped process is the same process with failing calls; `SharedFiles`, `SharedWrite`, `SharedRun`).
  What is read of such files is analysed in `Proofs/SharedRead`. Simplification: between two of its system calls the reading
  process sees files that stand still (so size field and schema text of a resource are looked at in the same moment).

* **C52** the lemmas of C01 hold up to the sign extension for every width; that step is analysed separately, exactly.

* **C53, C54** a process among others (`Spec/Parallel`): before every system call the others change the disk as they like, within the
  system calls that building another archive makes. A relation between runs on two storages (`Proofs/Simulate`) that every modelled
  function respects shows that the process behaves like one that is alone (`Proofs/Parallel`), because the calls of the others,
  whatever happens to them, change no file of the archive and no file above it (the same relation, used for one process).
* **C55** the same relation between two processes that read the archive in two places (`Proofs/Moved`).
* **C56** a relation between two states of a process between which only reading took place (`Proofs/Looks`): the later one has mapped
  (cached) more and has more storage objects; what has been read stays.
* **C57** what has been written and what accessors show are listed with path, name and schema (`Spec/Written`); between them are the
  listing of the files (C41) and the analysis of `open` (C31). Refuted for a directory where another archive is overwritten, and for an
  interrupted program that has written only the beginning of a schema. What an interrupted program or a power failure leaves is analysed with
  the relation of C44 (`PartLeft`, which also says that a schema file contains a beginning of the schema).
* **C58** two states that differ only in data are related (`differInData`, `Spec/Blind`); every step of opening preserves the relation
  and has the same outcome in both (`Blind.Same`, `Proofs/Blind`), for any storage in which reading a resource, its size field and its
  schema do (`Blind`). Calls are counted with the clock of the file system model (`Costs`, also for writing in `Proofs/WriteCalls`; for
  appending by induction over the history, with the fill of the buffers as potential).

* **C59** `Model/Narrow` repeats the functions that read with the number `m` of values of `usize` as a parameter; for `2 ^ 64` they are
  proved equal to the others (`Proofs/Narrow`, `C59_wide`). A view's outcome is computed without `m` where nothing overflows. For reading, the
  verdict on the bytes is compared with that of a 64-bit host (`verdict_same`); for archives, every step has the same outcome in states
  where the files fit (`Fitting.Same`).

* **C60** `Model/Borrow` gives every method of the storages that borrows a `RefCell` once more, over a world with the flag of every cell;
  a guard is released at the end of its scope. With nothing borrowed, each method does what it does without the checks; so the two
  storages behave alike in the sense of `Proofs/Simulate`, and a session (`Spec/Session`) sees the same with both. The guards that live
  longer than one call (`write`, `try_new`, `close`) are proved equal to a guard per call, which needs that the streams of a resource and
  of its schema are different cells (`Apart`). Refuted for a client that keeps a guard of a stream while it reads that resource in memory.
* **C61** `Model/Owner` gives the storages as owners of regions of memory: `Rc`s are counted, the last drop frees the regions in the maps,
  a pointer into a freed region or a storage that is gone is `ub`. Archives keep an `Rc` and descriptors (pointers); `open` drops what it owns
  when it fails. A client (`Spec/Owner`) is a list of moves; the invariant `Holder.Fine` (counts are the numbers of owners, every region
  is in exactly one map, every descriptor and loan points into a map of a storage that its variable owns) is kept by every move.
* **C62** `Model/NarrowWrite` repeats the writing functions with the number `m` of values of `usize`; for `2 ^ 64` they are proved equal to
  the others (`C62_wide`). A history on the narrow host is a history on the 64-bit host with all counters modulo `m` (`ngrows_sim`, `cut`),
  so the invariant of external vectors carries over, and `close` stores the bytes with their number modulo `m` (`close_cut`). For
  multivectors: equal where nothing overflows, and a weaker invariant (`Loose`) for the rest, from which a returned view fits.
* **C63** a function is compared with the calls it makes of an arbitrary backend (`Spec/Reports`: `Reports` = it succeeds after calls that all
  succeed, or ends with the first one that does not and has the same outcome; `Tells` leaves out panics of its own). `Reports` is closed under
  sequencing, so each function is one line. Refuted for `create_multi_vector` (`C63_multi_exact` says exactly when it panics).
* **C64** after a power failure every file is as it was at a moment of its own of the building run (`Spec/Power`: `cutAt` stops the run at a
  moment). `Left` of C44 is a conjunction of conditions on single files, so it survives mixing the moments (`left_mix`). Refuted for grown
  resources, for durability, and for file systems that lose bytes within a file (`TornLoss`).
* **C65** Rust's escaping of strings is an abstract function with the documented contract (`EscapeDebug`, in `Model/Error`), shown to be a prefix
  code; the texts are read back from the left, `Io` from its last quotation mark without a backslash. Names are looked for as string literals as
  Rust reads them (`Spec/Messages`). Refuted for errors without a name and for showing the lines of a diff as lines.
* **C66** a second model of `read_resource` (`Model/OsPath`) in which some characters of paths stand for bytes that are not UTF-8. Where paths are
  text both models are alike (`osAlike`, with the framework of C35); elsewhere reading never succeeds, and so neither does `close` (`Never`).
* **C67** the destructors as functions of the state of the thread (`Model/Unwind`), a client as a stack of scopes with arbitrary values and arbitrary
  panics (`Spec/Unwind`): an abort is not reachable. `close` and `create_multi_vector` once more with the state of the thread, related
  to the model of the other properties: the same in a running thread, and the same except for panics, which become errors, while unwinding.

* **C68, C69** `Vector` once more with capacity, count of allocations and width of `usize` (`Model/Capacity`); how `Vec` chooses capacities is an
  arbitrary function that gives enough. `RoomFor` (`Spec/Capacity`) is said in terms of what happens when elements are added; it is
  proved equivalent to a bound on the capacity (`roomFor_iff`). Histories are compared with the list of C10; forgetting
  capacities on 64-bit hosts gives `Model/Vector` (`C68_erase`).
* **C70** every function that opens or owns a `File` once more over a disk with a number of descriptors (`Model/OpenFiles`); a value with a
  file gives it back when its scope ends. One relation (`Balanced`, `Spec/OpenFiles`) between a function and the same function
  without limit, closed under `?`, scopes and moves (`Proofs/OpenFiles`); then by the structure of programs and definitions.
* **C71** histories of a vector interleaved with calls beside it and arbitrary changes of files (`Spec/Disturbed`); invariant about stream,
  position and buffer only, nothing about the content of the file (`Proofs/Disturbed`); closing puts size and buffer into whatever is there.
  Multivectors: two such vectors in one world, one of them of single bytes (`Spec/MDisturbed`, `Proofs/MDisturbed`), only for at most 32 MiB each.
* **C72** histories of a vector in memory in which others create the same resource and write to the shared stream (`Spec/Crowded`); the
  invariant counts the bytes of others (`Proofs/Crowded`). The size field is written at the front by `close`, so the size check of `read` sees
  every foreign byte; a second vector of the resource is one that finds foreign bytes from the beginning.
* **`_exact` theorems** (`Props/FieldsExact`, `MultiExact`, `StorageExact`, `StructsExact`, `DebugExact`, `MoreExact`, `CrashExact`, `MvCrashExact`, `CloseExact`, and `C30_disk_exact`, `C33_exact`, `C35_disk_exact`, `C36_exact`, `C36_multivec_exact`, `C37_exact`, `C38_exact`, `C43_exact`, `C54_exact`, `C66_exact`) show for a property that is false in general that the
  hypothesis of its `_partial` theorem is also necessary, so nothing more can be proved of the code as it is.

No property is considered inexpressible; what cannot be exhibited by the model (real memory, real disk caches,
threads) is listed in the trusted base.

Where the property as stated is false of the code, the full statement is kept as a definition `Cxx_claim`, its negation is
proved as `Cxx_refuted` with a concrete witness, and the strongest true statement found is proved with suffix `_partial` (or
`_exact` if it is an equivalence). The note in `MANIFEST.json` names what is missing.

## 3. Findings

Defects of the code that the proofs brought to light. Each is a theorem.

| where | what happens | theorem |
|---|---|---|
| `read_bytes!`, `write_bytes!` | a field that touches nine bytes and does not begin in the first byte of its struct is read and written wrongly | `C01_refuted`, `C02_refuted_straddle`, `C04_layout_refuted`, `C04_read_refuted`, `C05_refuted` |
| `write_bytes!` | unsigned setters do not mask: a value that does not fit overwrites neighbours | `C02_refuted` |
| `read_bytes!` | a signed field of one bit reads 1 instead of -1 | `C03_refuted` |
| `extend_sign!` | a signed field declared wider than its type panics when read, or (release) is read wrongly | `C52_refuted`, `C52_read_signed` |
| `define_struct!` | reading an enum field whose bits are no variant is undefined behaviour | `C09_refuted` |
| `Vector::at`, `at_mut` | an index just past the end is accepted (the padding is there); for structs larger than the padding this is a read or write past the allocation | `C11_refuted`, `C11_memory_unsafe`, `C11_dirty_grow` |
| `create_multi_vector` | panics if the process runs out of file descriptors at the data resource | `C70_multi_exact` (see `C63_multi_exact`) |
| `ExternalVector::close` | what has been flushed earlier is not checked: if somebody else has changed the file meanwhile, the returned view shows other elements than were grown | `C71_refuted`; exactly when: `C71_exact` |
| `MemoryResourceStorage::create_output_stream` | a resource that is started again while a vector of it is open shares its stream: neither vector can be closed successfully, and the resource cannot be read afterwards | `C72_twice`, `C72_lost`, `C72_other` |
| `Vector::with_len` | the size computation wraps in release builds | `C10_refuted` |
| `ArrayView::at`, `slice`, `MultiArrayView::at` | with wrapping arithmetic huge indices pass the check (no access outside the view results) | `C12_refuted`, `C13_refuted`, `C28_refuted_release`; exactly when: `C12_at_exact`, `C13_slice_exact`, `C28_at_exact`, `C28_slice_exact` |
| `MultiArrayView::slice` | `slice(i+1..i)` returns a view without end marker instead of panicking | `C28_slice_broken`, `C28_refuted` |
| `read_and_check_schema` | a stored size of at least 2^64-16 panics in debug builds | `C17_refuted`, `C31_refuted` |
| `FileResourceStorage` | an empty schema is stored as an empty file, which cannot be mapped | `C16_refuted`, `C18_refuted`, `C38_refuted` |
| `FileResourceStorage` | a resource once read keeps its old length after being rewritten | `C34_refuted_disk`, `C35_refuted_disk` |
| `MemoryResourceStorage` | writing a resource a second time appends | `C34_refuted_memory` |
| `MemoryResourceStorage::subdir` | a new empty storage every time: subarchives are lost, and archives with required subarchives cannot be opened | `C33_refuted`, `C33_memory_never`, `C33_exact` |
| `Path::exists` in `create_archive` | if the stat fails, an existing archive is overwritten | `C30_faulty_refuted` |
| `create_archive` | looks for the archive, then creates it: two processes that build the same archive at the same time both succeed, and one of them overwrites the other | `C54_refuted` |
| `ExternalVector`, `MultiVector` | a crash before the first flush leaves a file that reads as a valid empty resource, also within an archive, and while it is being written | `C20_extvec_refuted`, `C20_multivec_refuted`; exactly which: `C20_extvec_exact`, `C20_multivec_exact`; `C44_refuted`, `C51_refuted` |
| `close` | an I/O error inside `close` panics (assertion in `Drop`) instead of being returned | `C23_extvec_refuted`, `C23_multivec_refuted`, `C23_extvec_exact`, `C23_multivec_exact` |
| `ResourceHandle` | `grow` on a vector with closed handle buffers until the buffer is full; clones stay open, panic when dropped and can overwrite the closed resource | `C25_refuted`, `C25_clone_panics`, `C25_clone_overwrites` |
| `MultiVector` | index entries wrap silently when the data outgrows the index type | `C26_refuted`, `C27_refuted` |
| storages | reading a resource while it is written through the same storage object caches it; `close` then always fails, and panics for a multivector whose index was read | `C36_refuted_memory`, `C36_refuted_disk`, `C36_close_fails`, `C36_multivec_close_panics` |
| `define_archive!` | the stored size of a struct resource is not checked; the getter then reads past it | `C39_refuted` |
| `fill_from` | copies lose data of straddling fields | `C07_refuted`, `C40_refuted` |
| `define_archive!` `Debug` | a comma before the first resource | `C43_refuted` |
| `ArrayViewIter`, `MultiArrayViewIter` | `ExactSizeIterator` without `size_hint`: `skip(n).rev()`, `skip(n).len()`, `take(n).len()`, `zip(..).len()` panic | `C45_refuted`, `C45_skip_panics`, `C45_take_len`, `C45_zip_len` |
| `ResourceStorage::write` | the schema is written after the data: if overwriting a resource (of another archive in the same directory) fails in between, the new data are shown under the old schema | `C57_refuted` |
| `ResourceStorage::write` | the schema is written after the data, and only its bytes, without its length: if writing it is interrupted, the complete data can be opened with any definition whose schema is the part that has been written | `C57_interrupted_refuted` |
| `read_and_check_schema` | `MissingSchema` is documented but never returned; a missing schema is reported as I/O error of the resource | `C49_refuted`, `C49_never` |
| `read_and_check_schema`, `define_index!` | on 32-bit hosts size fields and index entries lose their high bits: a file whose size field is wrong by a multiple of 2^32 is accepted, an offset beyond the data shows other data | `C59_read_refuted`, `C59_multi_refuted`; exactly when: `C59_read_exact` |
| `ArrayView::at` | on 32-bit hosts in release builds element 2^30 of structs of four bytes is element 0 | `C59_view_refuted` |
| `Vector::reserve` | in release builds the number of bytes wraps around: `reserve(2^62)` of structs of four bytes reserves 8 bytes and returns | `C68_refuted`, `C68_reserve_exact` |
| `Vector::reserve` | counts the padding twice: it allocates although there is room for the elements, `reserve(0)` on a new vector does | `C68_idle_refuted`, `C68_idle_exact` |
| `Vector::with_len` | on 32-bit hosts in release builds `with_len(2^30)` of structs of four bytes is empty | `C69_refuted`, `C69_with_len_exact` |
| `ResourceHandle::write` | on 32-bit hosts in release builds the number of bytes wraps around: a vector of 4 GiB is stored with size 0, `close` returns an error, and nobody can read the file | `C62_refuted`, `C62_lost`; exactly: `C62_exact` |
| `create_multi_vector` | if the index has been created and the data resource cannot be, the open index is dropped: the process panics instead of getting the error | `C63_refuted`, `C63_multi_exact` |
| `UnexpectedDataSize`, `Utf8Error` | do not tell which resource is damaged | `C65_refuted`, `C65_named_exact` |
| `Display` of `WrongSignature` | prints `{:?}`: the diff is one line with `\n` in it | `C65_diff_refuted`, `C65_diff_escaped` |
| `FileResourceStorage::read_resource` | fails with `InvalidData` if the path is not UTF-8, while files are created there: archives are written that cannot be opened where they are, and no vector can be closed | `C66_refuted`, `C66_exact`, `C66_build_exact` |
| no `sync_all` anywhere | a successfully built archive may be gone after a power failure; grown vectors may be shown empty, and on file systems that lose bytes within a file also other data may be shown, without an error | `C64_durable_refuted`, `C64_refuted`, `C64_torn_refuted` |
| `MemoryResourceStorage::read_resource` | panics (`BorrowError`) if the client still holds a `borrow_mut()` of the stream of the resource, unless it was read before; on disk it does not | `C60_refuted`; exactly when: `C60_memory_exact`, `C60_disk_read` |

Seen while reading, outside the model: `MemoryDescriptor::default().as_bytes()` (src/storage.rs:229-256, an `unsafe fn`) calls `from_raw_parts` with
a null pointer, which Rust declares undefined; nothing in the crate does it.

## 4. Trusted base

**Lean.** The kernel of Lean 4.33.0. No axiom is added; there is no `sorry`, `admit`, `native_decide` or `bv_decide`. Every
theorem of `MANIFEST.json` depends at most on `propext`, `Classical.choice` and `Quot.sound`, the standard axioms; the list per
theorem is in `AXIOMS.md` (output of `#print axioms`, made by `tools/axioms.py`). `decide` and `decide +kernel` are used for the
concrete runs of refutations and non-vacuity examples, never for a universally quantified claim.

**Transcription.** That the definitions in `Model/*` say what the cited lines of Rust do. Simplifications are in the comment of
each definition. The general ones:

* Macros (`define_struct!`, `define_variadic_struct!`, `define_archive!`) are functions of the data a schema provides
  (`StructDef`, `VariadicDef`, `ArchiveDef`); the generator that prints Rust from a schema is outside /repo.
* References are represented by the byte string they point into; an access outside of it is `ub`. A program rejected by the
  compiler is not considered. The `unsafe` lifetime extensions in the storages and descriptors are represented by slices that stay
  readable; C61 (`Model/Owner`, where memory is freed) justifies this.
* `usize` has 64 bit (any width for reading: `Model/Narrow`, C59, and for writing vectors and multivectors: `Model/NarrowWrite`, C62); no allocation is larger than `isize::MAX`; allocation never fails.
* A `File` is closed when its last owner is dropped, `File::open` and `File::create` fail with an error of no particular kind and without effect when the process has no descriptor left, a mapping needs no open file (`Model/OpenFiles`, C70 only).
* Panics end the call; the state at that point is kept. What unwinding drops, and that it does not abort, is in `Model/Unwind` only (C67).
  Destructors of the client that panic are not considered.
* `Rc`/`RefCell` borrows: only `Model/Borrow` has the borrow flags; C60 shows that a client that keeps no guard of a stream during a call
  does not see them, so the other files leave them out. Reference counts are in `Model/Owner` only.

**Environment.** Ours, not in /repo: the file system (`Model/FileStorage`: files are byte strings, descriptors have positions,
any system call may fail after any part of its effect, a mapping shows the current bytes at its length), `PathBuf::join`
and path equality on plain Unix paths (no symbolic links; `..` is an ordinary component), UTF-8 decoding (Lean's), the crate
`diff` through the contract in `DiffLib` (the lines of both sides come back in order), `{:?}` of strings through the contract in `EscapeDebug`. `BTreeMap` is a finite map. The adapters in
`Model/Iter` follow the source of the standard library (from memory, it is not in the sandbox).

**Modelled:** `helper.rs`, `bytereader.rs` and `bytewriter.rs` (macros), `structbuf.rs`, `arrayview.rs`, `vector.rs`, `multivector.rs`,
`multiarrayview.rs`, `storage.rs`, `memstorage.rs`, `filestorage.rs`, `memory.rs`, `error.rs`, `archive.rs` (all macros
except `define_index!`'s hidden boilerplate and `opt!`/`static_if!`, which only choose between branches that are modelled),
the archive definitions and copying program of the integration test.

**Not modelled:** `Debug` of the two storage types, texts of the standard library's errors, `From` conversions without
effect, test code other than the above, threads, disk caches (except for what
a power failure leaves, C64: each file as it was at some moment, or with bytes missing), other processes changing files (except for those that build archives, C51, C53, and while a vector is written, C71), memory storages beyond the address space of 32-bit targets,
the aliasing model of Rust beyond C61 (provenance, uniqueness of `&mut`), documentation, macros' compile-time checks.

## 5. Testing the theorems

`seeded/LOG.jsonl` has one line per wrong variant of the model that was tried (in a copy outside /verif), with the theorems that
failed and those that were added or tightened because of it.

* `theorems_failed`: theorems whose own proof no longer went through. They were replaced by `sorry` in the copy until it built again.
* `property_theorems_resting_on_failed`: theorems of the manifest whose proof uses one of those. Their own proof still went through. This
  says that they are not proved for the wrong variant, not that they are false for it: another proof might exist.
  M921 is such a case.
* Variants M920 to M928 were built only as far as the theorems of C71 or C72 need (see their notes), so theorems of other properties are
  not listed completely.
* For M922 to M926 a concrete run was evaluated in the copy that shows the claim to be false there. For most of the others that is by argument.
