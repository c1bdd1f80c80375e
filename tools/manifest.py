#!/usr/bin/env python3
"""Writes /verif/MANIFEST.json from the table below."""
import json, os
C = []
def claim(pid, status, theorems, note):
    C.append({"property": pid, "status": status, "theorems": ["Flatdata." + t for t in theorems], "note": note})

claim("C01", "partial", ["C01_whole_type", "C01_roundtrip_partial", "C01_roundtrip_exact", "C01_refuted"],
  "Unrestricted claim is false of the code (fields needing a ninth byte at byte offset > 0; one-bit signed fields). Exact domain proved as an iff.")
claim("C02", "partial", ["C02_isolation_partial", "C02_damage_bound", "C02_isolation_exact", "C02_value_exact", "C02_accepted_exact", "C02_refuted", "C02_refuted_straddle"],
  "Unrestricted claim is false: unsigned setters do not mask, straddling fields write a wrong byte. Proved for fitting or signed values; damage of oversized values bounded. The exact layouts and values without damage are given as iffs.")
claim("C03", "partial", ["C03_signed_wrap_partial", "C03_signed_wrap_exact", "C03_signed_store", "C03_refuted"],
  "False for one-bit signed fields (getter returns 1) and straddling fields; proved for all others.")
claim("C04", "partial", ["C04_endian_independent", "C04_layout_partial", "C04_layout_exact", "C04_layout_refuted", "C04_read_partial", "C04_read_exact", "C04_read_refuted"],
  "Byte order independence proved without restriction; bit layout proved for non-straddling fields (false otherwise).")
claim("C05", "partial", ["C05_setter_confined", "C05_getter_confined_partial", "C05_getter_exact", "C05_refuted"],
  "Setter half proved in full; getter half false for straddling fields near the end of the struct, exact domain proved as an iff.")
claim("C06", "partial", ["C06_zero_reads", "C06_structbuf_partial", "C06_structbuf_bytes", "C06_vector_grow", "C06_extvec_grow", "C06_extvec_fields_partial", "C06_multivec_add", "C06_multivec_fields_partial", "C06_refuted", "C06_structbuf_exact"],
  "StructBuf, Vector, ExternalVector and MultiVector for all non-straddling fields with a zero value (false for the others). The handed out bytes are zero in every case. C06_structbuf_exact says exactly which fields of a new buffer read as zero.")
claim("C07", "partial", ["C07_fill_from_partial", "C07_refuted", "C07_source_exact", "C07_contents_exact"], "Missing: straddling fields and invalid enum discriminants (false there). Where nothing straddles the condition on enums is exact, for one source (C07_source_exact) and for all contents (C07_contents_exact).")
claim("C08", "partial", ["C08_equality_partial", "C08_equivalence", "C08_variadic_partial", "C08_equality_exact", "C08_refuted"],
  "Missing: straddling fields, bool fields wider than one bit, invalid enum discriminants (false there: C08_equality_exact shows that for a struct the property holds for all contents exactly if there are none of these). Equivalence relation proved for all layouts.")
claim("C09", "partial", ["C09_enum_roundtrip_partial", "C09_enum_read_partial", "C09_enum_read_exact", "C09_refuted"],
  "Reading stored bits that are no variant is undefined behaviour in the code, so the full claim is refuted; write/read and exact read behaviour proved.")
claim("C10", "partial", ["C10_vector_refines_list_partial", "C10_completes", "C10_fields", "C10_refuted", "C10_exact"],
  "Only missing: with_len(n) in wrapping builds when n*size+8 overflows, where the claim is false (witness; C10_exact: it is false for every such n).")
claim("C11", "partial", ["C11_detected_partial", "C11_exact_debug", "C11_memory_unsafe", "C11_refuted", "C11_dirty_grow"],
  "The code only detects indices beyond the padding; exact condition proved, full claim refuted, memory unsafety proved for every struct larger than 8 bytes.")
claim("C12", "partial", ["C12_len", "C12_at_debug", "C12_at_partial", "C12_at_release", "C12_at_exact", "C12_memory_safe", "C12_refuted"],
  "Full claim proved for overflow-checked builds; wrapping builds miss the panic when the byte offset overflows (refuted with a witness), but never return a reference outside the view. The exact outcome in wrapping builds is proved for every index.")
claim("C13", "partial", ["C13_slice_debug", "C13_slice_partial", "C13_slice_release", "C13_slice_exact", "C13_memory_safe", "C13_refuted"],
  "Full claim proved for overflow-checked builds; wrapping builds can miss the panic when the byte offset overflows (refuted with a witness). The exact outcome in wrapping builds is proved for all bounds.")
claim("C14", "proved", ["C14_iteration", "C14_deque_partition", "C14_exhausted"], "")
claim("C15", "partial", ["C15_debug_view_partial", "C15_debug_multi_partial", "C15_debug_item_partial", "C15_struct_partial", "C15_struct_exact", "C15_structbuf_partial",
  "C15_view_text_partial", "C15_vector_text_partial", "C15_multi_text_partial", "C15_item_text_partial", "C15_extvec", "C15_multivec", "C15_handle"],
  "Exact texts of structs, buffers, views, vectors, multi array views, items, iterators, external vectors, multivectors and handles. Missing: structs with fields that cannot be read correctly (straddling, one-bit signed, see C01) and stored enum values that are no variant (false there: C15_struct_exact shows that a struct is shown right for all contents exactly if there are none of these).")
claim("C16", "partial", ["C16_write_read_partial", "C16_exact", "C16_memory_total", "C16_refuted"],
  "Both storages, any reachable state, name and data. Only missing: empty schema on disk, where the claim is false (an empty file cannot be mapped).")
claim("C17", "partial", ["C17_read_check_partial", "C17_read_check_release", "C17_read_exact", "C17_memory_exact", "C17_never_wrong", "C17_refuted"],
  "Full claim proved for release builds; debug builds panic exactly on size fields >= 2^64-16 (refuted with a witness).")
claim("C18", "partial", ["C18_wrong_signature_partial", "C18_invalid_utf8", "C18_missing", "C18_refuted", "C18_exact"],
  "Only missing: an empty stored schema on disk, which is reported as Io error (refuted; C18_exact). The diff crate enters through its contract (DiffLib).")
claim("C19", "proved", ["C19_write_crash_safe"], "Every system call may fail after any part of its effect; process death is a fault at that call.")
claim("C20", "partial", ["C20_extvec_partial", "C20_extvec_refuted", "C20_multivec_partial", "C20_multivec_refuted", "C20_extvec_exact", "C20_extvec_small", "C20_extvec_flushed", "C20_multivec_exact"],
  "All or nothing at every crash point for external vectors and multivectors; false only for a 16 byte file with zero size field, which reads as empty (witnesses). Exactly the vectors with at most 16 bytes in their file when close is called can end up like that (C20_extvec_exact): all of up to 32 MiB (C20_extvec_small), none that has been flushed (C20_extvec_flushed). Exactly the multivectors with one to eight bytes of data can be read as others after a crash in close, if nothing failed before (C20_multivec_exact). Missing: the claim itself, which is false of the code.")
claim("C21", "proved", ["C21_grow_succeeds", "C21_roundtrip", "C21_later_read", "C21_new_process"], "Both storages, any history amid other calls; non-empty schema on disk.")
claim("C22", "proved", ["C22_faults"], "")
claim("C23", "partial", ["C23_extvec_partial", "C23_extvec_refuted", "C23_multivec_partial", "C23_multivec_refuted", "C23_extvec_exact",
  "C23_multivec_exact"],
  "False: a failed write inside close panics (destructor). Proved for external vectors and multivectors what happens instead, and on disk exactly which failing call of close makes it panic and which makes it return an error.")
claim("C24", "proved", ["C24_extvec", "C24_multivec"], "")
claim("C25", "partial", ["C25_drop_exact", "C25_unclosed_panics", "C25_after_close", "C25_closed_errors_partial", "C25_refuted", "C25_clone_panics", "C25_clone_overwrites",
  "C25_multivec_drop_exact", "C25_multivec_unclosed_panics", "C25_multivec_closed_errors_partial"],
  "False parts: grow on a closed handle still buffers (until the buffer is full); a clone of a handle stays open when the handle is closed, panics when dropped, and writing through it overwrites the closed resource.")
claim("C26", "partial", ["C26_grow_succeeds", "C26_add_succeeds", "C26_roundtrip_partial", "C26_faults_partial", "C26_later_read_partial",
  "C26_new_process_partial", "C26_roundtrip_exact", "C26_refuted"],
  "Proved for both storages and any history as long as the data is smaller than 2^bits of the index type; false beyond (index entries wrap silently, witness).")
claim("C27", "partial", ["C27_index_partial", "C27_index_exact", "C27_refuted"], "Same restriction as C26.")
claim("C28", "partial", ["C28_len", "C28_at", "C28_at_out_partial", "C28_at_release", "C28_at_exact", "C28_slice", "C28_slice_out_partial", "C28_slice_release", "C28_slice_exact", "C28_slice_broken",
  "C28_iteration", "C28_refuted", "C28_refuted_release"],
  "Everything in range and all iteration proved; out of range access panics with overflow checks. False: slice(i+1..i) returns a view without sentinel instead of panicking; in release builds huge indices wrap. Exact conditions are proved for both.")
claim("C29", "proved", ["C29_next", "C29_iteration", "C29_at"], "Any bytes, any index; references are represented by the slice they were created from.")
claim("C30", "partial", ["C30_builder_partial", "C30_builder_created", "C30_builder_second_partial", "C30_sub_disk_partial", "C30_already_exists_partial", "C30_created", "C30_second_fails_partial", "C30_disk_exact", "C30_faulty_refuted"],
  "Proved for both storages as long as no system call fails; if the stat behind exists() fails, an existing archive is overwritten (refuted). On disk that one call decides (C30_disk_exact). Two processes that create it at the same time are the subject of C54.")
claim("C31", "partial", ["C31_open", "C31_open_partial", "C31_open_exact", "C31_refuted"],
  "Arbitrary archive definitions with nested archives, both storages, arbitrary stored bytes. Full claim in release builds; false in debug builds only if a size field is >= 2^64-16 (panic, witness). C31_open also covers I/O errors.")
claim("C32", "proved", ["C32_build_and_open", "C32_build_succeeds", "C32_roundtrip", "C32_histories", "C32_again", "C32_new_process"],
  "Any archive definition, any program of builder calls or interleaved history; on disk including nested subarchives. C32_build_succeeds: where the places of its files are free and without I/O faults the builder calls succeed.")
claim("C33", "partial", ["C33_disk_partial", "C33_exact", "C33_memory_never", "C33_refuted"],
  "Proved on disk. False in memory: subdir creates a new empty storage each time, so subarchives are lost (witness). It holds exactly on disk or if no subarchive has been written (C33_exact); in memory, whatever was done before, opening never finds a subarchive and fails if one is required (C33_memory_never).")
claim("C34", "partial", ["C34_disk_unread_partial", "C34_disk_new_process_partial", "C34_disk_exact", "C34_memory_exact", "C34_refuted_memory", "C34_refuted_disk"],
  "False in general: memory appends instead of replacing; on disk a resource read before is seen through the old mapping. Proved on disk for unread resources and for new processes; and exactly when it holds: on disk if the mappings of the object have the lengths of the new files (C34_disk_exact), in memory only for the same content, read in between (C34_memory_exact).")
claim("C35", "partial", ["C35_memory", "C35_disk_partial", "C35_disk_created", "C35_disk_rewritten", "C35_refuted_disk", "C35_disk_exact"],
  "Full claim proved for memory; on disk false when the file is rewritten, proved otherwise; what the slice shows then is proved too (C35_disk_created, C35_disk_rewritten). C35_disk_exact: after any calls the slice shows the same bytes if and only if the file still begins with them.")
claim("C36", "partial", ["C36_read_fails_partial", "C36_other_object_partial", "C36_multivec_read_fails_partial", "C36_multivec_other_object_partial", "C36_close_fails", "C36_multivec_close_fails", "C36_multivec_close_panics", "C36_disk_not_lost", "C36_refuted_memory", "C36_refuted_disk", "C36_exact", "C36_multivec_exact"],
  "False in both storages: a read of an unfinished resource is cached by the storage object, so close fails. Proved: the read returns an error (no I/O faults), reads through other storage objects have no effect, on disk nothing is lost; and that close always fails after a read through the same object (C36_close_fails), for multivectors with a panic if the index was read. C36_exact: as long as nothing fails, a vector can be closed if and only if its resource has not been read through its own storage object; C36_multivec_exact: the same for multivectors, with a panic exactly if the index was read.")
claim("C37", "partial", ["C37_other_calls", "C37_places", "C37_schema_place", "C37_write_other", "C37_refuted", "C37_vector_ops", "C37_multivec_ops", "C22_faults", "C37_exact"],
  "All storage and stream calls, whole-resource reads/writes, external vectors and multivectors (both directions). Missing: resources whose name is another one's name plus .schema or _index, where the claim is false. C37_exact: for two plain names, writing one never affects reading the other if and only if neither is the schema name of the other.")
claim("C38", "partial", ["C38_interchangeable_partial", "C38_refuted", "C38_exact"],
  "Proved for all histories with non-empty schemas; false for empty schemas (unreadable on disk). C38_exact: a history is the same on both storages if and only if it reads nothing that it has written with an empty schema.")
claim("C39", "partial", ["C39_struct_partial", "C39_getter_exact", "C39_struct_exact", "C39_refuted"],
  "False: open does not check the size of struct resources, a getter then reads beyond the resource (witness). Proved for resources of at least the struct's size.")
claim("C40", "partial", ["C40_struct_partial", "C40_struct_copy_partial", "C40_vector_partial", "C40_external_vector_partial", "C40_multivector_partial",
  "C40_archive_partial", "C40_same_files_partial", "C40_copy_succeeds_partial", "C40_struct_exact", "C40_refuted"],
  "Structs, vectors, multivectors and whole archives (as the integration test copies one). Missing: definitions with straddling fields (false, witness) or bool fields wider than one bit; C40_struct_exact shows that copying a struct works for all contents exactly if there are no such fields and every enum has a variant for every pattern.")
claim("C41", "proved", ["C41_exact", "C41_empty", "C41_histories", "C41_vector", "C41_multivector", "C41_deterministic"], "In memory: archives without subarchives (see C33).")
claim("C42", "proved", ["C42_no_other_files"], "")
claim("C43", "partial", ["C43_archive_partial", "C43_exact", "C43_refuted"],
  "The code prints a spurious comma before the first resource (refuted); the exact text is proved, raw data being shown as pointer and size; it is right exactly if the archive has neither resources nor subarchives (C43_exact).")
claim("C44", "partial", ["C44_interrupted_partial", "C44_setters", "C44_complete_or_error", "C44_refuted"],
  "False for resources written step by step, which may be shown empty (witness); proved with this exception, and in full for programs that use setters only.")
claim("C45", "partial", ["C45_iterators_partial", "C45_loops", "C45_nth", "C45_rev", "C45_map", "C45_enumerate", "C45_take_partial",
  "C45_take_forward", "C45_skip_partial", "C45_zip_partial", "C45_skip_take_collect", "C45_skip_panics", "C45_take_len", "C45_zip_len", "C45_refuted"],
  "False: size_hint is (0, None), so skip(n).len(), skip(n).rev(), take(n).len() and zip(..).len() panic (refuted, the panics are proved). Proved: everything else, for arbitrary chains of the adapters.")
claim("C46", "proved", ["C46_programs", "C46_calls", "C46_build", "C46_copy"], "Client programs are arbitrary trees of calls (Spec/Client); any implementation of the storage trait.")
claim("C47", "proved", ["C47_programs", "C47_calls", "C47_build", "C47_copy"], "As C46; without exception, panics included.")
claim("C48", "proved", ["C48_calls", "C48_rule", "C48_programs", "C48_views", "C48_stable", "C48_initial"],
  "The limits are the guards of Spec/Safe; beside the theorems are runs with undefined behaviour that show that they are needed.")
claim("C49", "partial", ["C49_read_partial", "C49_descriptions", "C49_unique", "C49_read_exact", "C49_not_found", "C49_open_partial", "C49_names", "C49_never", "C49_refuted"],
  "False: MissingSchema is never returned (C49_never), a missing schema gives Io/NotFound with the name of the resource. Everything else proved; in debug builds a size field >= 2^64-16 panics instead (C17).")
claim("C50", "proved", ["C50_open", "C50_view", "C50_both", "C50_same_directory", "C50_other_directory"],
  "Apart (Spec/Neighbours) is having no file in common; C50_same_directory and C50_other_directory give sufficient conditions. C50_both in memory: archives without subarchives (see C33).")
claim("C51", "partial", ["C51_shared_partial", "C51_setters", "C51_complete_or_error", "C51_refuted"],
  "False for resources written step by step, which may be shown empty or cut (witness: empty, and it stays so after the other process has ended); proved with this exception, and in full for programs that use setters only. The files stand still between two system calls of the reading process.")
claim("C52", "partial", ["C52_unsigned_partial", "C52_read_unsigned", "C52_read_signed", "C52_exact", "C52_refuted"],
  "False for signed types: reading panics with overflow checks, without it uses too few bits unless the width is a multiple of the type's (exact condition proved). Fields that touch a ninth byte are excluded (see C01).")
claim("C53", "proved", ["C53_parallel", "C53_calls", "C53_another", "C53_same_directory", "C53_other_directory"],
  "What the others do between two calls (Others.Build) is any number of system calls of processes that build archives beside it (Spec/Parallel); C53_calls and C53_another show what this covers, C53_same_directory and C53_other_directory what Beside covers. create_dir_all and write_all are one call each.")
claim("C54", "partial", ["C54_late_partial", "C54_after_partial", "C54_exact", "C54_refuted"],
  "False: between looking for the archive and creating it another process can do the same, both succeed and one is lost (witness). Proved for a process that begins when the archive is there; C54_exact says exactly when a process is refused.")
claim("C55", "proved", ["C55_moved", "C55_yields"], "outcome (Spec/Moved) is the error, or the data behind every descriptor of the opened archive.")
claim("C56", "proved", ["C56_open", "C56_read", "C56_harmless", "C56_exists", "C56_repeat", "C56_repeat_read", "C56_open_again", "C56_retry", "C56_retry_read"], "Untouched, Looks and calm are defined in Spec/Looks. What reading does to later writes through the same object (the cache) is the subject of C34 and C36.")
claim("C57", "partial", ["C57_refuted", "C57_shown_partial", "C57_refused_partial", "C57_keeps_partial", "C57_open", "C57_interrupted_refuted", "C57_interrupted_partial", "C57_outage_partial", "C57_prefix_free"], "The claim is false where an archive is overwritten (C57_refuted): an I/O error between data and schema of a resource leaves new data under the schema that was there. It is also false in an empty directory if writing the schema itself is interrupted (C57_interrupted_refuted): the data are shown under a beginning of the schema. Proved for archives built in an empty directory (shown, refused), and beside others at free places if the building succeeds (keeps, open). However the building ends, and after a power failure, nothing else can be read at free places than what was to be written, under a beginning of its schema (interrupted, outage), so under its schema if none of the schemas used is a beginning of another (prefix_free). An interrupted ExternalVector that reads as empty resource is the subject of C20 and C44.")
claim("C58", "proved", ["C58_open", "C58_read", "C58_append_calls", "C58_multi_append_calls", "C58_write_calls"], "differInData, calls, resourceCount, Appends and MAppends are defined in Spec/Blind. The calls are those of the model: exists, open, mmap (with the fstat in it), write_all are one call each.")
claim("C59", "partial", ["C59_wide", "C59_read_refuted", "C59_read_exact", "C59_read_ok", "C59_open_partial", "C59_complete_fits", "C59_view_refuted", "C59_view_partial", "C59_view_safe", "C59_multi_refuted", "C59_multi_ok", "C59_multi_partial"], "False in general: size fields and index entries are cast to usize and lose their high bits (C59_read_refuted, C59_multi_refuted), and in release builds smaller indices wrap around (C59_view_refuted). C59_read_exact says exactly for which files reading differs; in particular complete files never do (C59_complete_fits), and what a 64-bit host reads every host reads (C59_read_ok). Opening is the same if all files of the archive fit, elements and items are the same, and in debug builds all outcomes of views are. Writing is the subject of C62.")
claim("C60", "partial", ["C60_refuted", "C60_memory_exact", "C60_disk_read", "C60_guards", "C60_busy", "C60_memory_partial", "C60_disk_partial"], "False for a program that keeps a borrow_mut() of the stream of a resource while it reads that resource in memory (C60_refuted; C60_memory_exact says exactly when it panics; on disk it does not, C60_disk_read). Every program that keeps no guard during a call sees the same as without borrow checks, and nothing stays borrowed (C60_memory_partial, C60_disk_partial). The guards inside the library that live longer than one call never conflict (C60_guards).")
claim("C61", "proved", ["C61_never_dangles", "C61_readable", "C61_bytes_stay", "C61_alive_exact", "C61_no_leak"], "One model for both storages (Model/Owner): counts, maps and regions; what a request to the environment returns is arbitrary. The rule of the compiler (nothing borrowed from a variable when it is dropped or moved) is part of the client (Spec/Owner); a client that calls the unsafe functions is not considered. A file that is truncated while it is mapped is not considered.")
claim("C62", "partial", ["C62_wide", "C62_same_partial", "C62_close_ok", "C62_debug", "C62_grow_succeeds", "C62_exact", "C62_lost", "C62_refuted", "C62_multi_same_partial", "C62_multi_close_ok"], "False in release builds: the number of bytes of a vector wraps around, 4 GiB on a 32-bit host are stored with size 0 (C62_refuted) and refused by every later process (C62_lost); C62_exact says what is stored for every size. Proved: the same as on a 64-bit host if the bytes can be counted and the buffer fits (C62_same_partial, C62_multi_same_partial); in every build a view is returned only of what the host can count and shows exactly the elements (C62_close_ok, C62_multi_close_ok); in debug builds larger vectors panic (C62_debug). Missing: what multivectors that the host cannot count leave in their files; memory storages beyond what the host can allocate. (Vector: C69.)")
claim("C63", "partial", ["C63_refuted", "C63_write_partial", "C63_setters", "C63_archive", "C63_subarchive", "C63_read", "C63_grow", "C63_multi_grow", "C63_multi_exact"], "For every implementation of the trait. Refuted for create_multi_vector: if the index has been created and creating the data resource fails, the open index is dropped and the process panics instead of getting the error (exactly then, C63_multi_exact). Proved in full for everything else: writing and setting resources, starting vectors, creating archives and subarchives, reading, growing.")
claim("C64", "partial", ["C64_refuted", "C64_outage_partial", "C64_setters", "C64_complete_or_error", "C64_durable_refuted", "C64_torn_refuted"], "Three parts are false: a vector or multivector that was grown may be shown empty (C64_refuted), a successfully built archive may be gone since nothing is ever synchronised (C64_durable_refuted), and where file systems lose bytes within a file even resources written by setters may be shown with other data (C64_torn_refuted). Proved, where each file keeps its bytes in the order in which they were written: apart from resources that are grown, which may be empty, opening fails or shows complete data only.")
claim("C65", "partial", ["C65_refuted", "C65_diff_refuted", "C65_distinct", "C65_one_line", "C65_named_exact", "C65_schemas_partial", "C65_diff_escaped"], "Two parts are false: data of the wrong size and schemas that are not UTF-8 are reported without the name of the resource (C65_refuted; exactly these: C65_named_exact), and the diff of schemas of several lines is not shown as such but as a string literal on one line (C65_diff_refuted, C65_diff_escaped). Proved: the rest; the diff can be read from the literal. Assumes different texts, in one line, of errors of the standard library.")
claim("C66", "partial", ["C66_refuted", "C66_text_partial", "C66_exact", "C66_read", "C66_unreadable", "C66_open", "C66_setters", "C66_vectors", "C66_build_exact", "C66_moved"], "False: read_resource returns InvalidData if the path is not UTF-8 (C66_refuted). Exactly: the round trip works if and only if the path is text (C66_exact). Elsewhere no archive can be opened (C66_open); building one succeeds if and only if the program uses setters only (C66_build_exact), since closing a vector reads it; what was built can be moved to a directory whose path is text and opened there (C66_moved).")
claim("C67", "proved", ["C67_no_abort", "C67_leave_exact", "C67_unwind", "C67_close_ext", "C67_close_multi", "C67_create_multi", "C67_guard_ext", "C67_guard_multi", "C67_guard_create", "C67_guard_same"], "Model/Unwind gives the destructors and the functions that drop values with the state of the thread. No execution aborts (C67_no_abort); the end of a scope panics exactly if a value is open (C67_leave_exact). In a running thread these functions are those of the other properties (C67_close_ext, C67_close_multi, C67_create_multi); in a thread that unwinds they return (C67_guard_*), with the same result and effects where the running thread returns (C67_guard_same). Panics in destructors of the client are not considered.")
claim("C68", "partial", ["C68_reserve_partial", "C68_reserve_exact", "C68_refuted", "C68_idle_exact", "C68_idle_refuted", "C68_again", "C68_erase"], "Two parts are false: without overflow checks reserve(k) returns although nearly nothing was reserved if (len+k)*size+8 does not fit into usize (C68_refuted; exactly then: C68_reserve_exact), and where there is room for exactly k more elements it allocates nevertheless, since the padding is counted twice (C68_idle_refuted; exactly: C68_idle_exact). Model/Capacity adds capacities and allocations to Model/Vector (C68_erase).")
claim("C69", "partial", ["C69_vector_partial", "C69_with_len_exact", "C69_refuted", "C69_same", "C69_succeeds", "C69_half"], "False without overflow checks: with_len(2^30) of structs of four bytes is empty on a 32-bit host (C69_refuted; exactly when: C69_with_len_exact). Everything else proved; that histories succeed needs an allocator that gives whatever fits (C69_succeeds), one that doubles refuses from a quarter of the address space on (C69_half).")
claim("C70", "proved", ["C70_archives", "C70_calls", "C70_vectors", "C70_write_exact", "C70_vector_exact", "C70_multi_exact"], "Model/OpenFiles gives the functions that open or own files over the disk and the number of files that may still be opened; the disk is the one of the other properties. Balanced (Spec/OpenFiles) says that a function does what it does without limit if there are k descriptors, and that none is lost whatever happens. The numbers are the smallest: with fewer, a call that would succeed fails (C70_write_exact, C70_vector_exact), create_multi_vector panics with exactly two (C70_multi_exact, see C63).")
claim("C71", "partial", ["C71_partial", "C71_multivec_partial", "C71_exact", "C71_refuted"], "False for vectors of more than 32 MiB: what has been flushed is never looked at again, so a change of it is shown by the view that close returns (C71_refuted). Proved for all vectors of at most 32 MiB (C71_partial: nothing is flushed before close, and the size field says where the vector ends). C71_exact says what the view shows in general if the storage object had not read the resource: of the flushed bytes what is in the file, then the buffer; hence it is right iff the flushed part has not been changed. C71_multivec_partial is the same for multivectors whose index and data have at most 32 MiB each: both slices have exactly the bytes of the items. Missing: what a larger multivector shows. Files that are deleted meanwhile are not modelled (a deleted file lives on for its stream).")
claim("C72", "proved", ["C72_shown", "C72_exact", "C72_lost", "C72_other", "C72_twice"], "For histories in which nobody reads the resource and no other writer of it is closed before the vector is (as the statement says); C72_exact gives the exact condition for the error, C72_lost and C72_other say that the resource can neither be read nor closed successfully ever after, C72_twice is about two vectors of one resource, in whatever order they are closed.")
if __name__ == "__main__":
    path = os.path.join(os.path.dirname(os.path.abspath(__file__)), "..", "MANIFEST.json")
    json.dump({"claims": C}, open(path, "w"), indent=1)
