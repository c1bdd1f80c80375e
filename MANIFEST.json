{
 "claims": [
  {
   "property": "C01",
   "status": "partial",
   "theorems": [
    "Flatdata.C01_whole_type",
    "Flatdata.C01_roundtrip_partial",
    "Flatdata.C01_roundtrip_exact",
    "Flatdata.C01_refuted"
   ],
   "note": "Unrestricted claim is false of the code (fields needing a ninth byte at byte offset > 0; one-bit signed fields). Exact domain proved as an iff."
  },
  {
   "property": "C02",
   "status": "partial",
   "theorems": [
    "Flatdata.C02_isolation_partial",
    "Flatdata.C02_damage_bound",
    "Flatdata.C02_isolation_exact",
    "Flatdata.C02_value_exact",
    "Flatdata.C02_accepted_exact",
    "Flatdata.C02_refuted",
    "Flatdata.C02_refuted_straddle"
   ],
   "note": "Unrestricted claim is false: unsigned setters do not mask, straddling fields write a wrong byte. Proved for fitting or signed values; damage of oversized values bounded. The exact layouts and values without damage are given as iffs."
  },
  {
   "property": "C03",
   "status": "partial",
   "theorems": [
    "Flatdata.C03_signed_wrap_partial",
    "Flatdata.C03_signed_wrap_exact",
    "Flatdata.C03_signed_store",
    "Flatdata.C03_refuted"
   ],
   "note": "False for one-bit signed fields (getter returns 1) and straddling fields; proved for all others."
  },
  {
   "property": "C04",
   "status": "partial",
   "theorems": [
    "Flatdata.C04_endian_independent",
    "Flatdata.C04_layout_partial",
    "Flatdata.C04_layout_exact",
    "Flatdata.C04_layout_refuted",
    "Flatdata.C04_read_partial",
    "Flatdata.C04_read_exact",
    "Flatdata.C04_read_refuted"
   ],
   "note": "Byte order independence proved without restriction; bit layout proved for non-straddling fields (false otherwise)."
  },
  {
   "property": "C05",
   "status": "partial",
   "theorems": [
    "Flatdata.C05_setter_confined",
    "Flatdata.C05_getter_confined_partial",
    "Flatdata.C05_getter_exact",
    "Flatdata.C05_refuted"
   ],
   "note": "Setter half proved in full; getter half false for straddling fields near the end of the struct, exact domain proved as an iff."
  },
  {
   "property": "C06",
   "status": "partial",
   "theorems": [
    "Flatdata.C06_zero_reads",
    "Flatdata.C06_structbuf_partial",
    "Flatdata.C06_structbuf_bytes",
    "Flatdata.C06_vector_grow",
    "Flatdata.C06_extvec_grow",
    "Flatdata.C06_extvec_fields_partial",
    "Flatdata.C06_multivec_add",
    "Flatdata.C06_multivec_fields_partial",
    "Flatdata.C06_refuted",
    "Flatdata.C06_structbuf_exact"
   ],
   "note": "StructBuf, Vector, ExternalVector and MultiVector for all non-straddling fields with a zero value (false for the others). The handed out bytes are zero in every case. C06_structbuf_exact says exactly which fields of a new buffer read as zero."
  },
  {
   "property": "C07",
   "status": "partial",
   "theorems": [
    "Flatdata.C07_fill_from_partial",
    "Flatdata.C07_refuted",
    "Flatdata.C07_source_exact",
    "Flatdata.C07_contents_exact"
   ],
   "note": "Missing: straddling fields and invalid enum discriminants (false there). Where nothing straddles the condition on enums is exact, for one source (C07_source_exact) and for all contents (C07_contents_exact)."
  },
  {
   "property": "C08",
   "status": "partial",
   "theorems": [
    "Flatdata.C08_equality_partial",
    "Flatdata.C08_equivalence",
    "Flatdata.C08_variadic_partial",
    "Flatdata.C08_equality_exact",
    "Flatdata.C08_refuted"
   ],
   "note": "Missing: straddling fields, bool fields wider than one bit, invalid enum discriminants (false there: C08_equality_exact shows that for a struct the property holds for all contents exactly if there are none of these). Equivalence relation proved for all layouts."
  },
  {
   "property": "C09",
   "status": "partial",
   "theorems": [
    "Flatdata.C09_enum_roundtrip_partial",
    "Flatdata.C09_enum_read_partial",
    "Flatdata.C09_enum_read_exact",
    "Flatdata.C09_refuted"
   ],
   "note": "Reading stored bits that are no variant is undefined behaviour in the code, so the full claim is refuted; write/read and exact read behaviour proved."
  },
  {
   "property": "C10",
   "status": "partial",
   "theorems": [
    "Flatdata.C10_vector_refines_list_partial",
    "Flatdata.C10_completes",
    "Flatdata.C10_fields",
    "Flatdata.C10_refuted",
    "Flatdata.C10_exact"
   ],
   "note": "Only missing: with_len(n) in wrapping builds when n*size+8 overflows, where the claim is false (witness; C10_exact: it is false for every such n)."
  },
  {
   "property": "C11",
   "status": "partial",
   "theorems": [
    "Flatdata.C11_detected_partial",
    "Flatdata.C11_exact_debug",
    "Flatdata.C11_memory_unsafe",
    "Flatdata.C11_refuted",
    "Flatdata.C11_dirty_grow"
   ],
   "note": "The code only detects indices beyond the padding; exact condition proved, full claim refuted, memory unsafety proved for every struct larger than 8 bytes."
  },
  {
   "property": "C12",
   "status": "partial",
   "theorems": [
    "Flatdata.C12_len",
    "Flatdata.C12_at_debug",
    "Flatdata.C12_at_partial",
    "Flatdata.C12_at_release",
    "Flatdata.C12_at_exact",
    "Flatdata.C12_memory_safe",
    "Flatdata.C12_refuted"
   ],
   "note": "Full claim proved for overflow-checked builds; wrapping builds miss the panic when the byte offset overflows (refuted with a witness), but never return a reference outside the view. The exact outcome in wrapping builds is proved for every index."
  },
  {
   "property": "C13",
   "status": "partial",
   "theorems": [
    "Flatdata.C13_slice_debug",
    "Flatdata.C13_slice_partial",
    "Flatdata.C13_slice_release",
    "Flatdata.C13_slice_exact",
    "Flatdata.C13_memory_safe",
    "Flatdata.C13_refuted"
   ],
   "note": "Full claim proved for overflow-checked builds; wrapping builds can miss the panic when the byte offset overflows (refuted with a witness). The exact outcome in wrapping builds is proved for all bounds."
  },
  {
   "property": "C14",
   "status": "proved",
   "theorems": [
    "Flatdata.C14_iteration",
    "Flatdata.C14_deque_partition",
    "Flatdata.C14_exhausted"
   ],
   "note": ""
  },
  {
   "property": "C15",
   "status": "partial",
   "theorems": [
    "Flatdata.C15_debug_view_partial",
    "Flatdata.C15_debug_multi_partial",
    "Flatdata.C15_debug_item_partial",
    "Flatdata.C15_struct_partial",
    "Flatdata.C15_struct_exact",
    "Flatdata.C15_structbuf_partial",
    "Flatdata.C15_view_text_partial",
    "Flatdata.C15_vector_text_partial",
    "Flatdata.C15_multi_text_partial",
    "Flatdata.C15_item_text_partial",
    "Flatdata.C15_extvec",
    "Flatdata.C15_multivec",
    "Flatdata.C15_handle"
   ],
   "note": "Exact texts of structs, buffers, views, vectors, multi array views, items, iterators, external vectors, multivectors and handles. Missing: structs with fields that cannot be read correctly (straddling, one-bit signed, see C01) and stored enum values that are no variant (false there: C15_struct_exact shows that a struct is shown right for all contents exactly if there are none of these)."
  },
  {
   "property": "C16",
   "status": "partial",
   "theorems": [
    "Flatdata.C16_write_read_partial",
    "Flatdata.C16_exact",
    "Flatdata.C16_memory_total",
    "Flatdata.C16_refuted"
   ],
   "note": "Both storages, any reachable state, name and data. Only missing: empty schema on disk, where the claim is false (an empty file cannot be mapped)."
  },
  {
   "property": "C17",
   "status": "partial",
   "theorems": [
    "Flatdata.C17_read_check_partial",
    "Flatdata.C17_read_check_release",
    "Flatdata.C17_read_exact",
    "Flatdata.C17_memory_exact",
    "Flatdata.C17_never_wrong",
    "Flatdata.C17_refuted"
   ],
   "note": "Full claim proved for release builds; debug builds panic exactly on size fields >= 2^64-16 (refuted with a witness)."
  },
  {
   "property": "C18",
   "status": "partial",
   "theorems": [
    "Flatdata.C18_wrong_signature_partial",
    "Flatdata.C18_invalid_utf8",
    "Flatdata.C18_missing",
    "Flatdata.C18_refuted",
    "Flatdata.C18_exact"
   ],
   "note": "Only missing: an empty stored schema on disk, which is reported as Io error (refuted; C18_exact). The diff crate enters through its contract (DiffLib)."
  },
  {
   "property": "C19",
   "status": "proved",
   "theorems": [
    "Flatdata.C19_write_crash_safe"
   ],
   "note": "Every system call may fail after any part of its effect; process death is a fault at that call."
  },
  {
   "property": "C20",
   "status": "partial",
   "theorems": [
    "Flatdata.C20_extvec_partial",
    "Flatdata.C20_extvec_refuted",
    "Flatdata.C20_multivec_partial",
    "Flatdata.C20_multivec_refuted",
    "Flatdata.C20_extvec_exact",
    "Flatdata.C20_extvec_small",
    "Flatdata.C20_extvec_flushed",
    "Flatdata.C20_multivec_exact"
   ],
   "note": "All or nothing at every crash point for external vectors and multivectors; false only for a 16 byte file with zero size field, which reads as empty (witnesses). Exactly the vectors with at most 16 bytes in their file when close is called can end up like that (C20_extvec_exact): all of up to 32 MiB (C20_extvec_small), none that has been flushed (C20_extvec_flushed). Exactly the multivectors with one to eight bytes of data can be read as others after a crash in close, if nothing failed before (C20_multivec_exact). Missing: the claim itself, which is false of the code."
  },
  {
   "property": "C21",
   "status": "proved",
   "theorems": [
    "Flatdata.C21_grow_succeeds",
    "Flatdata.C21_roundtrip",
    "Flatdata.C21_later_read",
    "Flatdata.C21_new_process"
   ],
   "note": "Both storages, any history amid other calls; non-empty schema on disk."
  },
  {
   "property": "C22",
   "status": "proved",
   "theorems": [
    "Flatdata.C22_faults"
   ],
   "note": ""
  },
  {
   "property": "C23",
   "status": "partial",
   "theorems": [
    "Flatdata.C23_extvec_partial",
    "Flatdata.C23_extvec_refuted",
    "Flatdata.C23_multivec_partial",
    "Flatdata.C23_multivec_refuted",
    "Flatdata.C23_extvec_exact",
    "Flatdata.C23_multivec_exact"
   ],
   "note": "False: a failed write inside close panics (destructor). Proved for external vectors and multivectors what happens instead, and on disk exactly which failing call of close makes it panic and which makes it return an error."
  },
  {
   "property": "C24",
   "status": "proved",
   "theorems": [
    "Flatdata.C24_extvec",
    "Flatdata.C24_multivec"
   ],
   "note": ""
  },
  {
   "property": "C25",
   "status": "partial",
   "theorems": [
    "Flatdata.C25_drop_exact",
    "Flatdata.C25_unclosed_panics",
    "Flatdata.C25_after_close",
    "Flatdata.C25_closed_errors_partial",
    "Flatdata.C25_refuted",
    "Flatdata.C25_clone_panics",
    "Flatdata.C25_clone_overwrites",
    "Flatdata.C25_multivec_drop_exact",
    "Flatdata.C25_multivec_unclosed_panics",
    "Flatdata.C25_multivec_closed_errors_partial"
   ],
   "note": "False parts: grow on a closed handle still buffers (until the buffer is full); a clone of a handle stays open when the handle is closed, panics when dropped, and writing through it overwrites the closed resource."
  },
  {
   "property": "C26",
   "status": "partial",
   "theorems": [
    "Flatdata.C26_grow_succeeds",
    "Flatdata.C26_add_succeeds",
    "Flatdata.C26_roundtrip_partial",
    "Flatdata.C26_faults_partial",
    "Flatdata.C26_later_read_partial",
    "Flatdata.C26_new_process_partial",
    "Flatdata.C26_roundtrip_exact",
    "Flatdata.C26_refuted"
   ],
   "note": "Proved for both storages and any history as long as the data is smaller than 2^bits of the index type; false beyond (index entries wrap silently, witness)."
  },
  {
   "property": "C27",
   "status": "partial",
   "theorems": [
    "Flatdata.C27_index_partial",
    "Flatdata.C27_index_exact",
    "Flatdata.C27_refuted"
   ],
   "note": "Same restriction as C26."
  },
  {
   "property": "C28",
   "status": "partial",
   "theorems": [
    "Flatdata.C28_len",
    "Flatdata.C28_at",
    "Flatdata.C28_at_out_partial",
    "Flatdata.C28_at_release",
    "Flatdata.C28_at_exact",
    "Flatdata.C28_slice",
    "Flatdata.C28_slice_out_partial",
    "Flatdata.C28_slice_release",
    "Flatdata.C28_slice_exact",
    "Flatdata.C28_slice_broken",
    "Flatdata.C28_iteration",
    "Flatdata.C28_refuted",
    "Flatdata.C28_refuted_release"
   ],
   "note": "Everything in range and all iteration proved; out of range access panics with overflow checks. False: slice(i+1..i) returns a view without sentinel instead of panicking; in release builds huge indices wrap. Exact conditions are proved for both."
  },
  {
   "property": "C29",
   "status": "proved",
   "theorems": [
    "Flatdata.C29_next",
    "Flatdata.C29_iteration",
    "Flatdata.C29_at"
   ],
   "note": "Any bytes, any index; references are represented by the slice they were created from."
  },
  {
   "property": "C30",
   "status": "partial",
   "theorems": [
    "Flatdata.C30_builder_partial",
    "Flatdata.C30_builder_created",
    "Flatdata.C30_builder_second_partial",
    "Flatdata.C30_sub_disk_partial",
    "Flatdata.C30_already_exists_partial",
    "Flatdata.C30_created",
    "Flatdata.C30_second_fails_partial",
    "Flatdata.C30_disk_exact",
    "Flatdata.C30_faulty_refuted"
   ],
   "note": "Proved for both storages as long as no system call fails; if the stat behind exists() fails, an existing archive is overwritten (refuted). On disk that one call decides (C30_disk_exact). Two processes that create it at the same time are the subject of C54."
  },
  {
   "property": "C31",
   "status": "partial",
   "theorems": [
    "Flatdata.C31_open",
    "Flatdata.C31_open_partial",
    "Flatdata.C31_open_exact",
    "Flatdata.C31_refuted"
   ],
   "note": "Arbitrary archive definitions with nested archives, both storages, arbitrary stored bytes. Full claim in release builds; false in debug builds only if a size field is >= 2^64-16 (panic, witness). C31_open also covers I/O errors."
  },
  {
   "property": "C32",
   "status": "proved",
   "theorems": [
    "Flatdata.C32_build_and_open",
    "Flatdata.C32_build_succeeds",
    "Flatdata.C32_roundtrip",
    "Flatdata.C32_histories",
    "Flatdata.C32_again",
    "Flatdata.C32_new_process"
   ],
   "note": "Any archive definition, any program of builder calls or interleaved history; on disk including nested subarchives. C32_build_succeeds: where the places of its files are free and without I/O faults the builder calls succeed."
  },
  {
   "property": "C33",
   "status": "partial",
   "theorems": [
    "Flatdata.C33_disk_partial",
    "Flatdata.C33_exact",
    "Flatdata.C33_memory_never",
    "Flatdata.C33_refuted"
   ],
   "note": "Proved on disk. False in memory: subdir creates a new empty storage each time, so subarchives are lost (witness). It holds exactly on disk or if no subarchive has been written (C33_exact); in memory, whatever was done before, opening never finds a subarchive and fails if one is required (C33_memory_never)."
  },
  {
   "property": "C34",
   "status": "partial",
   "theorems": [
    "Flatdata.C34_disk_unread_partial",
    "Flatdata.C34_disk_new_process_partial",
    "Flatdata.C34_disk_exact",
    "Flatdata.C34_memory_exact",
    "Flatdata.C34_refuted_memory",
    "Flatdata.C34_refuted_disk"
   ],
   "note": "False in general: memory appends instead of replacing; on disk a resource read before is seen through the old mapping. Proved on disk for unread resources and for new processes; and exactly when it holds: on disk if the mappings of the object have the lengths of the new files (C34_disk_exact), in memory only for the same content, read in between (C34_memory_exact)."
  },
  {
   "property": "C35",
   "status": "partial",
   "theorems": [
    "Flatdata.C35_memory",
    "Flatdata.C35_disk_partial",
    "Flatdata.C35_disk_created",
    "Flatdata.C35_disk_rewritten",
    "Flatdata.C35_refuted_disk",
    "Flatdata.C35_disk_exact"
   ],
   "note": "Full claim proved for memory; on disk false when the file is rewritten, proved otherwise; what the slice shows then is proved too (C35_disk_created, C35_disk_rewritten). C35_disk_exact: after any calls the slice shows the same bytes if and only if the file still begins with them."
  },
  {
   "property": "C36",
   "status": "partial",
   "theorems": [
    "Flatdata.C36_read_fails_partial",
    "Flatdata.C36_other_object_partial",
    "Flatdata.C36_multivec_read_fails_partial",
    "Flatdata.C36_multivec_other_object_partial",
    "Flatdata.C36_close_fails",
    "Flatdata.C36_multivec_close_fails",
    "Flatdata.C36_multivec_close_panics",
    "Flatdata.C36_disk_not_lost",
    "Flatdata.C36_refuted_memory",
    "Flatdata.C36_refuted_disk",
    "Flatdata.C36_exact",
    "Flatdata.C36_multivec_exact"
   ],
   "note": "False in both storages: a read of an unfinished resource is cached by the storage object, so close fails. Proved: the read returns an error (no I/O faults), reads through other storage objects have no effect, on disk nothing is lost; and that close always fails after a read through the same object (C36_close_fails), for multivectors with a panic if the index was read. C36_exact: as long as nothing fails, a vector can be closed if and only if its resource has not been read through its own storage object; C36_multivec_exact: the same for multivectors, with a panic exactly if the index was read."
  },
  {
   "property": "C37",
   "status": "partial",
   "theorems": [
    "Flatdata.C37_other_calls",
    "Flatdata.C37_places",
    "Flatdata.C37_schema_place",
    "Flatdata.C37_write_other",
    "Flatdata.C37_refuted",
    "Flatdata.C37_vector_ops",
    "Flatdata.C37_multivec_ops",
    "Flatdata.C22_faults",
    "Flatdata.C37_exact"
   ],
   "note": "All storage and stream calls, whole-resource reads/writes, external vectors and multivectors (both directions). Missing: resources whose name is another one's name plus .schema or _index, where the claim is false. C37_exact: for two plain names, writing one never affects reading the other if and only if neither is the schema name of the other."
  },
  {
   "property": "C38",
   "status": "partial",
   "theorems": [
    "Flatdata.C38_interchangeable_partial",
    "Flatdata.C38_refuted",
    "Flatdata.C38_exact"
   ],
   "note": "Proved for all histories with non-empty schemas; false for empty schemas (unreadable on disk). C38_exact: a history is the same on both storages if and only if it reads nothing that it has written with an empty schema."
  },
  {
   "property": "C39",
   "status": "partial",
   "theorems": [
    "Flatdata.C39_struct_partial",
    "Flatdata.C39_getter_exact",
    "Flatdata.C39_struct_exact",
    "Flatdata.C39_refuted"
   ],
   "note": "False: open does not check the size of struct resources, a getter then reads beyond the resource (witness). Proved for resources of at least the struct's size."
  },
  {
   "property": "C40",
   "status": "partial",
   "theorems": [
    "Flatdata.C40_struct_partial",
    "Flatdata.C40_struct_copy_partial",
    "Flatdata.C40_vector_partial",
    "Flatdata.C40_external_vector_partial",
    "Flatdata.C40_multivector_partial",
    "Flatdata.C40_archive_partial",
    "Flatdata.C40_same_files_partial",
    "Flatdata.C40_copy_succeeds_partial",
    "Flatdata.C40_struct_exact",
    "Flatdata.C40_refuted"
   ],
   "note": "Structs, vectors, multivectors and whole archives (as the integration test copies one). Missing: definitions with straddling fields (false, witness) or bool fields wider than one bit; C40_struct_exact shows that copying a struct works for all contents exactly if there are no such fields and every enum has a variant for every pattern."
  },
  {
   "property": "C41",
   "status": "proved",
   "theorems": [
    "Flatdata.C41_exact",
    "Flatdata.C41_empty",
    "Flatdata.C41_histories",
    "Flatdata.C41_vector",
    "Flatdata.C41_multivector",
    "Flatdata.C41_deterministic"
   ],
   "note": "In memory: archives without subarchives (see C33)."
  },
  {
   "property": "C42",
   "status": "proved",
   "theorems": [
    "Flatdata.C42_no_other_files"
   ],
   "note": ""
  },
  {
   "property": "C43",
   "status": "partial",
   "theorems": [
    "Flatdata.C43_archive_partial",
    "Flatdata.C43_exact",
    "Flatdata.C43_refuted"
   ],
   "note": "The code prints a spurious comma before the first resource (refuted); the exact text is proved, raw data being shown as pointer and size; it is right exactly if the archive has neither resources nor subarchives (C43_exact)."
  },
  {
   "property": "C44",
   "status": "partial",
   "theorems": [
    "Flatdata.C44_interrupted_partial",
    "Flatdata.C44_setters",
    "Flatdata.C44_complete_or_error",
    "Flatdata.C44_refuted"
   ],
   "note": "False for resources written step by step, which may be shown empty (witness); proved with this exception, and in full for programs that use setters only."
  },
  {
   "property": "C45",
   "status": "partial",
   "theorems": [
    "Flatdata.C45_iterators_partial",
    "Flatdata.C45_loops",
    "Flatdata.C45_nth",
    "Flatdata.C45_rev",
    "Flatdata.C45_map",
    "Flatdata.C45_enumerate",
    "Flatdata.C45_take_partial",
    "Flatdata.C45_take_forward",
    "Flatdata.C45_skip_partial",
    "Flatdata.C45_zip_partial",
    "Flatdata.C45_skip_take_collect",
    "Flatdata.C45_skip_panics",
    "Flatdata.C45_take_len",
    "Flatdata.C45_zip_len",
    "Flatdata.C45_refuted"
   ],
   "note": "False: size_hint is (0, None), so skip(n).len(), skip(n).rev(), take(n).len() and zip(..).len() panic (refuted, the panics are proved). Proved: everything else, for arbitrary chains of the adapters."
  },
  {
   "property": "C46",
   "status": "proved",
   "theorems": [
    "Flatdata.C46_programs",
    "Flatdata.C46_calls",
    "Flatdata.C46_build",
    "Flatdata.C46_copy"
   ],
   "note": "Client programs are arbitrary trees of calls (Spec/Client); any implementation of the storage trait."
  },
  {
   "property": "C47",
   "status": "proved",
   "theorems": [
    "Flatdata.C47_programs",
    "Flatdata.C47_calls",
    "Flatdata.C47_build",
    "Flatdata.C47_copy"
   ],
   "note": "As C46; without exception, panics included."
  },
  {
   "property": "C48",
   "status": "proved",
   "theorems": [
    "Flatdata.C48_calls",
    "Flatdata.C48_rule",
    "Flatdata.C48_programs",
    "Flatdata.C48_views",
    "Flatdata.C48_stable",
    "Flatdata.C48_initial"
   ],
   "note": "The limits are the guards of Spec/Safe; beside the theorems are runs with undefined behaviour that show that they are needed."
  },
  {
   "property": "C49",
   "status": "partial",
   "theorems": [
    "Flatdata.C49_read_partial",
    "Flatdata.C49_descriptions",
    "Flatdata.C49_unique",
    "Flatdata.C49_read_exact",
    "Flatdata.C49_not_found",
    "Flatdata.C49_open_partial",
    "Flatdata.C49_names",
    "Flatdata.C49_never",
    "Flatdata.C49_refuted"
   ],
   "note": "False: MissingSchema is never returned (C49_never), a missing schema gives Io/NotFound with the name of the resource. Everything else proved; in debug builds a size field >= 2^64-16 panics instead (C17)."
  },
  {
   "property": "C50",
   "status": "proved",
   "theorems": [
    "Flatdata.C50_open",
    "Flatdata.C50_view",
    "Flatdata.C50_both",
    "Flatdata.C50_same_directory",
    "Flatdata.C50_other_directory"
   ],
   "note": "Apart (Spec/Neighbours) is having no file in common; C50_same_directory and C50_other_directory give sufficient conditions. C50_both in memory: archives without subarchives (see C33)."
  },
  {
   "property": "C51",
   "status": "partial",
   "theorems": [
    "Flatdata.C51_shared_partial",
    "Flatdata.C51_setters",
    "Flatdata.C51_complete_or_error",
    "Flatdata.C51_refuted"
   ],
   "note": "False for resources written step by step, which may be shown empty or cut (witness: empty, and it stays so after the other process has ended); proved with this exception, and in full for programs that use setters only. The files stand still between two system calls of the reading process."
  },
  {
   "property": "C52",
   "status": "partial",
   "theorems": [
    "Flatdata.C52_unsigned_partial",
    "Flatdata.C52_read_unsigned",
    "Flatdata.C52_read_signed",
    "Flatdata.C52_exact",
    "Flatdata.C52_refuted"
   ],
   "note": "False for signed types: reading panics with overflow checks, without it uses too few bits unless the width is a multiple of the type's (exact condition proved). Fields that touch a ninth byte are excluded (see C01)."
  },
  {
   "property": "C53",
   "status": "proved",
   "theorems": [
    "Flatdata.C53_parallel",
    "Flatdata.C53_calls",
    "Flatdata.C53_another",
    "Flatdata.C53_same_directory",
    "Flatdata.C53_other_directory"
   ],
   "note": "What the others do between two calls (Others.Build) is any number of system calls of processes that build archives beside it (Spec/Parallel); C53_calls and C53_another show what this covers, C53_same_directory and C53_other_directory what Beside covers. create_dir_all and write_all are one call each."
  },
  {
   "property": "C54",
   "status": "partial",
   "theorems": [
    "Flatdata.C54_late_partial",
    "Flatdata.C54_after_partial",
    "Flatdata.C54_exact",
    "Flatdata.C54_refuted"
   ],
   "note": "False: between looking for the archive and creating it another process can do the same, both succeed and one is lost (witness). Proved for a process that begins when the archive is there; C54_exact says exactly when a process is refused."
  },
  {
   "property": "C55",
   "status": "proved",
   "theorems": [
    "Flatdata.C55_moved",
    "Flatdata.C55_yields"
   ],
   "note": "outcome (Spec/Moved) is the error, or the data behind every descriptor of the opened archive."
  },
  {
   "property": "C56",
   "status": "proved",
   "theorems": [
    "Flatdata.C56_open",
    "Flatdata.C56_read",
    "Flatdata.C56_harmless",
    "Flatdata.C56_exists",
    "Flatdata.C56_repeat",
    "Flatdata.C56_repeat_read",
    "Flatdata.C56_open_again",
    "Flatdata.C56_retry",
    "Flatdata.C56_retry_read"
   ],
   "note": "Untouched, Looks and calm are defined in Spec/Looks. What reading does to later writes through the same object (the cache) is the subject of C34 and C36."
  },
  {
   "property": "C57",
   "status": "partial",
   "theorems": [
    "Flatdata.C57_refuted",
    "Flatdata.C57_shown_partial",
    "Flatdata.C57_refused_partial",
    "Flatdata.C57_keeps_partial",
    "Flatdata.C57_open",
    "Flatdata.C57_interrupted_refuted",
    "Flatdata.C57_interrupted_partial",
    "Flatdata.C57_outage_partial",
    "Flatdata.C57_prefix_free"
   ],
   "note": "The claim is false where an archive is overwritten (C57_refuted): an I/O error between data and schema of a resource leaves new data under the schema that was there. It is also false in an empty directory if writing the schema itself is interrupted (C57_interrupted_refuted): the data are shown under a beginning of the schema. Proved for archives built in an empty directory (shown, refused), and beside others at free places if the building succeeds (keeps, open). However the building ends, and after a power failure, nothing else can be read at free places than what was to be written, under a beginning of its schema (interrupted, outage), so under its schema if none of the schemas used is a beginning of another (prefix_free). An interrupted ExternalVector that reads as empty resource is the subject of C20 and C44."
  },
  {
   "property": "C58",
   "status": "proved",
   "theorems": [
    "Flatdata.C58_open",
    "Flatdata.C58_read",
    "Flatdata.C58_append_calls",
    "Flatdata.C58_multi_append_calls",
    "Flatdata.C58_write_calls"
   ],
   "note": "differInData, calls, resourceCount, Appends and MAppends are defined in Spec/Blind. The calls are those of the model: exists, open, mmap (with the fstat in it), write_all are one call each."
  },
  {
   "property": "C59",
   "status": "partial",
   "theorems": [
    "Flatdata.C59_wide",
    "Flatdata.C59_read_refuted",
    "Flatdata.C59_read_exact",
    "Flatdata.C59_read_ok",
    "Flatdata.C59_open_partial",
    "Flatdata.C59_complete_fits",
    "Flatdata.C59_view_refuted",
    "Flatdata.C59_view_partial",
    "Flatdata.C59_view_safe",
    "Flatdata.C59_multi_refuted",
    "Flatdata.C59_multi_ok",
    "Flatdata.C59_multi_partial"
   ],
   "note": "False in general: size fields and index entries are cast to usize and lose their high bits (C59_read_refuted, C59_multi_refuted), and in release builds smaller indices wrap around (C59_view_refuted). C59_read_exact says exactly for which files reading differs; in particular complete files never do (C59_complete_fits), and what a 64-bit host reads every host reads (C59_read_ok). Opening is the same if all files of the archive fit, elements and items are the same, and in debug builds all outcomes of views are. Writing is the subject of C62."
  },
  {
   "property": "C60",
   "status": "partial",
   "theorems": [
    "Flatdata.C60_refuted",
    "Flatdata.C60_memory_exact",
    "Flatdata.C60_disk_read",
    "Flatdata.C60_guards",
    "Flatdata.C60_busy",
    "Flatdata.C60_memory_partial",
    "Flatdata.C60_disk_partial"
   ],
   "note": "False for a program that keeps a borrow_mut() of the stream of a resource while it reads that resource in memory (C60_refuted; C60_memory_exact says exactly when it panics; on disk it does not, C60_disk_read). Every program that keeps no guard during a call sees the same as without borrow checks, and nothing stays borrowed (C60_memory_partial, C60_disk_partial). The guards inside the library that live longer than one call never conflict (C60_guards)."
  },
  {
   "property": "C61",
   "status": "proved",
   "theorems": [
    "Flatdata.C61_never_dangles",
    "Flatdata.C61_readable",
    "Flatdata.C61_bytes_stay",
    "Flatdata.C61_alive_exact",
    "Flatdata.C61_no_leak"
   ],
   "note": "One model for both storages (Model/Owner): counts, maps and regions; what a request to the environment returns is arbitrary. The rule of the compiler (nothing borrowed from a variable when it is dropped or moved) is part of the client (Spec/Owner); a client that calls the unsafe functions is not considered. A file that is truncated while it is mapped is not considered."
  },
  {
   "property": "C62",
   "status": "partial",
   "theorems": [
    "Flatdata.C62_wide",
    "Flatdata.C62_same_partial",
    "Flatdata.C62_close_ok",
    "Flatdata.C62_debug",
    "Flatdata.C62_grow_succeeds",
    "Flatdata.C62_exact",
    "Flatdata.C62_lost",
    "Flatdata.C62_refuted",
    "Flatdata.C62_multi_same_partial",
    "Flatdata.C62_multi_close_ok"
   ],
   "note": "False in release builds: the number of bytes of a vector wraps around, 4 GiB on a 32-bit host are stored with size 0 (C62_refuted) and refused by every later process (C62_lost); C62_exact says what is stored for every size. Proved: the same as on a 64-bit host if the bytes can be counted and the buffer fits (C62_same_partial, C62_multi_same_partial); in every build a view is returned only of what the host can count and shows exactly the elements (C62_close_ok, C62_multi_close_ok); in debug builds larger vectors panic (C62_debug). Missing: what multivectors that the host cannot count leave in their files; memory storages beyond what the host can allocate. (Vector: C69.)"
  },
  {
   "property": "C63",
   "status": "partial",
   "theorems": [
    "Flatdata.C63_refuted",
    "Flatdata.C63_write_partial",
    "Flatdata.C63_setters",
    "Flatdata.C63_archive",
    "Flatdata.C63_subarchive",
    "Flatdata.C63_read",
    "Flatdata.C63_grow",
    "Flatdata.C63_multi_grow",
    "Flatdata.C63_multi_exact"
   ],
   "note": "For every implementation of the trait. Refuted for create_multi_vector: if the index has been created and creating the data resource fails, the open index is dropped and the process panics instead of getting the error (exactly then, C63_multi_exact). Proved in full for everything else: writing and setting resources, starting vectors, creating archives and subarchives, reading, growing."
  },
  {
   "property": "C64",
   "status": "partial",
   "theorems": [
    "Flatdata.C64_refuted",
    "Flatdata.C64_outage_partial",
    "Flatdata.C64_setters",
    "Flatdata.C64_complete_or_error",
    "Flatdata.C64_durable_refuted",
    "Flatdata.C64_torn_refuted"
   ],
   "note": "Three parts are false: a vector or multivector that was grown may be shown empty (C64_refuted), a successfully built archive may be gone since nothing is ever synchronised (C64_durable_refuted), and where file systems lose bytes within a file even resources written by setters may be shown with other data (C64_torn_refuted). Proved, where each file keeps its bytes in the order in which they were written: apart from resources that are grown, which may be empty, opening fails or shows complete data only."
  },
  {
   "property": "C65",
   "status": "partial",
   "theorems": [
    "Flatdata.C65_refuted",
    "Flatdata.C65_diff_refuted",
    "Flatdata.C65_distinct",
    "Flatdata.C65_one_line",
    "Flatdata.C65_named_exact",
    "Flatdata.C65_schemas_partial",
    "Flatdata.C65_diff_escaped"
   ],
   "note": "Two parts are false: data of the wrong size and schemas that are not UTF-8 are reported without the name of the resource (C65_refuted; exactly these: C65_named_exact), and the diff of schemas of several lines is not shown as such but as a string literal on one line (C65_diff_refuted, C65_diff_escaped). Proved: the rest; the diff can be read from the literal. Assumes different texts, in one line, of errors of the standard library."
  },
  {
   "property": "C66",
   "status": "partial",
   "theorems": [
    "Flatdata.C66_refuted",
    "Flatdata.C66_text_partial",
    "Flatdata.C66_exact",
    "Flatdata.C66_read",
    "Flatdata.C66_unreadable",
    "Flatdata.C66_open",
    "Flatdata.C66_setters",
    "Flatdata.C66_vectors",
    "Flatdata.C66_build_exact",
    "Flatdata.C66_moved"
   ],
   "note": "False: read_resource returns InvalidData if the path is not UTF-8 (C66_refuted). Exactly: the round trip works if and only if the path is text (C66_exact). Elsewhere no archive can be opened (C66_open); building one succeeds if and only if the program uses setters only (C66_build_exact), since closing a vector reads it; what was built can be moved to a directory whose path is text and opened there (C66_moved)."
  },
  {
   "property": "C67",
   "status": "proved",
   "theorems": [
    "Flatdata.C67_no_abort",
    "Flatdata.C67_leave_exact",
    "Flatdata.C67_unwind",
    "Flatdata.C67_close_ext",
    "Flatdata.C67_close_multi",
    "Flatdata.C67_create_multi",
    "Flatdata.C67_guard_ext",
    "Flatdata.C67_guard_multi",
    "Flatdata.C67_guard_create",
    "Flatdata.C67_guard_same"
   ],
   "note": "Model/Unwind gives the destructors and the functions that drop values with the state of the thread. No execution aborts (C67_no_abort); the end of a scope panics exactly if a value is open (C67_leave_exact). In a running thread these functions are those of the other properties (C67_close_ext, C67_close_multi, C67_create_multi); in a thread that unwinds they return (C67_guard_*), with the same result and effects where the running thread returns (C67_guard_same). Panics in destructors of the client are not considered."
  },
  {
   "property": "C68",
   "status": "partial",
   "theorems": [
    "Flatdata.C68_reserve_partial",
    "Flatdata.C68_reserve_exact",
    "Flatdata.C68_refuted",
    "Flatdata.C68_idle_exact",
    "Flatdata.C68_idle_refuted",
    "Flatdata.C68_again",
    "Flatdata.C68_erase"
   ],
   "note": "Two parts are false: without overflow checks reserve(k) returns although nearly nothing was reserved if (len+k)*size+8 does not fit into usize (C68_refuted; exactly then: C68_reserve_exact), and where there is room for exactly k more elements it allocates nevertheless, since the padding is counted twice (C68_idle_refuted; exactly: C68_idle_exact). Model/Capacity adds capacities and allocations to Model/Vector (C68_erase)."
  },
  {
   "property": "C69",
   "status": "partial",
   "theorems": [
    "Flatdata.C69_vector_partial",
    "Flatdata.C69_with_len_exact",
    "Flatdata.C69_refuted",
    "Flatdata.C69_same",
    "Flatdata.C69_succeeds",
    "Flatdata.C69_half"
   ],
   "note": "False without overflow checks: with_len(2^30) of structs of four bytes is empty on a 32-bit host (C69_refuted; exactly when: C69_with_len_exact). Everything else proved; that histories succeed needs an allocator that gives whatever fits (C69_succeeds), one that doubles refuses from a quarter of the address space on (C69_half)."
  },
  {
   "property": "C70",
   "status": "proved",
   "theorems": [
    "Flatdata.C70_archives",
    "Flatdata.C70_calls",
    "Flatdata.C70_vectors",
    "Flatdata.C70_write_exact",
    "Flatdata.C70_vector_exact",
    "Flatdata.C70_multi_exact"
   ],
   "note": "Model/OpenFiles gives the functions that open or own files over the disk and the number of files that may still be opened; the disk is the one of the other properties. Balanced (Spec/OpenFiles) says that a function does what it does without limit if there are k descriptors, and that none is lost whatever happens. The numbers are the smallest: with fewer, a call that would succeed fails (C70_write_exact, C70_vector_exact), create_multi_vector panics with exactly two (C70_multi_exact, see C63)."
  },
  {
   "property": "C71",
   "status": "partial",
   "theorems": [
    "Flatdata.C71_partial",
    "Flatdata.C71_multivec_partial",
    "Flatdata.C71_exact",
    "Flatdata.C71_refuted"
   ],
   "note": "False for vectors of more than 32 MiB: what has been flushed is never looked at again, so a change of it is shown by the view that close returns (C71_refuted). Proved for all vectors of at most 32 MiB (C71_partial: nothing is flushed before close, and the size field says where the vector ends). C71_exact says what the view shows in general if the storage object had not read the resource: of the flushed bytes what is in the file, then the buffer; hence it is right iff the flushed part has not been changed. C71_multivec_partial is the same for multivectors whose index and data have at most 32 MiB each: both slices have exactly the bytes of the items. Missing: what a larger multivector shows. Files that are deleted meanwhile are not modelled (a deleted file lives on for its stream)."
  },
  {
   "property": "C72",
   "status": "proved",
   "theorems": [
    "Flatdata.C72_shown",
    "Flatdata.C72_exact",
    "Flatdata.C72_lost",
    "Flatdata.C72_other",
    "Flatdata.C72_twice"
   ],
   "note": "For histories in which nobody reads the resource and no other writer of it is closed before the vector is (as the statement says); C72_exact gives the exact condition for the error, C72_lost and C72_other say that the resource can neither be read nor closed successfully ever after, C72_twice is about two vectors of one resource, in whatever order they are closed."
  }
 ]
}