# Axioms of the theorems in MANIFEST.json

Made by `tools/axioms.py` from `#print axioms`.

| theorem | axioms |
|---|---|
| `Flatdata.C01_refuted` | propext, Classical.choice, Quot.sound |
| `Flatdata.C01_roundtrip_exact` | propext, Classical.choice, Quot.sound |
| `Flatdata.C01_roundtrip_partial` | propext, Classical.choice, Quot.sound |
| `Flatdata.C01_whole_type` | propext, Classical.choice, Quot.sound |
| `Flatdata.C02_accepted_exact` | propext, Classical.choice, Quot.sound |
| `Flatdata.C02_damage_bound` | propext, Classical.choice, Quot.sound |
| `Flatdata.C02_isolation_exact` | propext, Classical.choice, Quot.sound |
| `Flatdata.C02_isolation_partial` | propext, Classical.choice, Quot.sound |
| `Flatdata.C02_refuted` | propext, Quot.sound |
| `Flatdata.C02_refuted_straddle` | propext, Quot.sound |
| `Flatdata.C02_value_exact` | propext, Classical.choice, Quot.sound |
| `Flatdata.C03_refuted` | propext, Quot.sound |
| `Flatdata.C03_signed_store` | propext, Classical.choice, Quot.sound |
| `Flatdata.C03_signed_wrap_exact` | propext, Classical.choice, Quot.sound |
| `Flatdata.C03_signed_wrap_partial` | propext, Classical.choice, Quot.sound |
| `Flatdata.C04_endian_independent` | propext, Quot.sound |
| `Flatdata.C04_layout_exact` | propext, Classical.choice, Quot.sound |
| `Flatdata.C04_layout_partial` | propext, Classical.choice, Quot.sound |
| `Flatdata.C04_layout_refuted` | propext, Quot.sound |
| `Flatdata.C04_read_exact` | propext, Classical.choice, Quot.sound |
| `Flatdata.C04_read_partial` | propext, Classical.choice, Quot.sound |
| `Flatdata.C04_read_refuted` | propext, Quot.sound |
| `Flatdata.C05_getter_confined_partial` | propext, Classical.choice, Quot.sound |
| `Flatdata.C05_getter_exact` | propext, Classical.choice, Quot.sound |
| `Flatdata.C05_refuted` | propext, Classical.choice, Quot.sound |
| `Flatdata.C05_setter_confined` | propext, Classical.choice, Quot.sound |
| `Flatdata.C06_extvec_fields_partial` | propext, Classical.choice, Quot.sound |
| `Flatdata.C06_extvec_grow` | propext, Classical.choice, Quot.sound |
| `Flatdata.C06_multivec_add` | propext, Classical.choice, Quot.sound |
| `Flatdata.C06_multivec_fields_partial` | propext, Classical.choice, Quot.sound |
| `Flatdata.C06_refuted` | propext, Quot.sound |
| `Flatdata.C06_structbuf_bytes` | propext |
| `Flatdata.C06_structbuf_exact` | propext, Classical.choice, Quot.sound |
| `Flatdata.C06_structbuf_partial` | propext, Classical.choice, Quot.sound |
| `Flatdata.C06_vector_grow` | propext, Classical.choice, Quot.sound |
| `Flatdata.C06_zero_reads` | propext, Classical.choice, Quot.sound |
| `Flatdata.C07_contents_exact` | propext, Classical.choice, Quot.sound |
| `Flatdata.C07_fill_from_partial` | propext, Classical.choice, Quot.sound |
| `Flatdata.C07_refuted` | propext, Quot.sound |
| `Flatdata.C07_source_exact` | propext, Classical.choice, Quot.sound |
| `Flatdata.C08_equality_exact` | propext, Classical.choice, Quot.sound |
| `Flatdata.C08_equality_partial` | propext, Classical.choice, Quot.sound |
| `Flatdata.C08_equivalence` | propext, Quot.sound |
| `Flatdata.C08_refuted` | propext, Quot.sound |
| `Flatdata.C08_variadic_partial` | propext, Classical.choice, Quot.sound |
| `Flatdata.C09_enum_read_exact` | propext, Classical.choice, Quot.sound |
| `Flatdata.C09_enum_read_partial` | propext, Classical.choice, Quot.sound |
| `Flatdata.C09_enum_roundtrip_partial` | propext, Classical.choice, Quot.sound |
| `Flatdata.C09_refuted` | propext, Quot.sound |
| `Flatdata.C10_completes` | propext, Classical.choice, Quot.sound |
| `Flatdata.C10_exact` | propext, Classical.choice, Quot.sound |
| `Flatdata.C10_fields` | propext, Classical.choice, Quot.sound |
| `Flatdata.C10_refuted` | propext, Quot.sound |
| `Flatdata.C10_vector_refines_list_partial` | propext, Classical.choice, Quot.sound |
| `Flatdata.C11_detected_partial` | propext, Quot.sound |
| `Flatdata.C11_dirty_grow` | propext, Quot.sound |
| `Flatdata.C11_exact_debug` | propext, Classical.choice, Quot.sound |
| `Flatdata.C11_memory_unsafe` | propext, Quot.sound |
| `Flatdata.C11_refuted` | none |
| `Flatdata.C12_at_debug` | propext, Quot.sound |
| `Flatdata.C12_at_exact` | propext, Quot.sound |
| `Flatdata.C12_at_partial` | propext, Quot.sound |
| `Flatdata.C12_at_release` | propext, Quot.sound |
| `Flatdata.C12_len` | propext, Classical.choice, Quot.sound |
| `Flatdata.C12_memory_safe` | propext, Quot.sound |
| `Flatdata.C12_refuted` | propext |
| `Flatdata.C13_memory_safe` | propext, Quot.sound |
| `Flatdata.C13_refuted` | propext |
| `Flatdata.C13_slice_debug` | propext, Classical.choice, Quot.sound |
| `Flatdata.C13_slice_exact` | propext, Classical.choice, Quot.sound |
| `Flatdata.C13_slice_partial` | propext, Classical.choice, Quot.sound |
| `Flatdata.C13_slice_release` | propext |
| `Flatdata.C14_deque_partition` | propext, Quot.sound |
| `Flatdata.C14_exhausted` | propext, Quot.sound |
| `Flatdata.C14_iteration` | propext, Classical.choice, Quot.sound |
| `Flatdata.C15_debug_item_partial` | propext, Classical.choice, Quot.sound |
| `Flatdata.C15_debug_multi_partial` | propext, Classical.choice, Quot.sound |
| `Flatdata.C15_debug_view_partial` | propext, Classical.choice, Quot.sound |
| `Flatdata.C15_extvec` | propext, Classical.choice, Quot.sound |
| `Flatdata.C15_handle` | propext, Classical.choice, Quot.sound |
| `Flatdata.C15_item_text_partial` | propext, Classical.choice, Quot.sound |
| `Flatdata.C15_multi_text_partial` | propext, Classical.choice, Quot.sound |
| `Flatdata.C15_multivec` | propext, Classical.choice, Quot.sound |
| `Flatdata.C15_struct_exact` | propext, Classical.choice, Quot.sound |
| `Flatdata.C15_struct_partial` | propext, Classical.choice, Quot.sound |
| `Flatdata.C15_structbuf_partial` | propext, Classical.choice, Quot.sound |
| `Flatdata.C15_vector_text_partial` | propext, Classical.choice, Quot.sound |
| `Flatdata.C15_view_text_partial` | propext, Classical.choice, Quot.sound |
| `Flatdata.C16_exact` | propext, Classical.choice, Quot.sound |
| `Flatdata.C16_memory_total` | propext, Classical.choice, Quot.sound |
| `Flatdata.C16_refuted` | propext, Classical.choice, Quot.sound |
| `Flatdata.C16_write_read_partial` | propext, Classical.choice, Quot.sound |
| `Flatdata.C17_memory_exact` | propext, Classical.choice, Quot.sound |
| `Flatdata.C17_never_wrong` | propext, Classical.choice, Quot.sound |
| `Flatdata.C17_read_check_partial` | propext, Classical.choice, Quot.sound |
| `Flatdata.C17_read_check_release` | propext, Classical.choice, Quot.sound |
| `Flatdata.C17_read_exact` | propext, Classical.choice, Quot.sound |
| `Flatdata.C17_refuted` | propext, Classical.choice, Quot.sound |
| `Flatdata.C18_exact` | propext, Classical.choice, Quot.sound |
| `Flatdata.C18_invalid_utf8` | propext, Classical.choice, Quot.sound |
| `Flatdata.C18_missing` | propext, Classical.choice, Quot.sound |
| `Flatdata.C18_refuted` | propext, Classical.choice, Quot.sound |
| `Flatdata.C18_wrong_signature_partial` | propext, Classical.choice, Quot.sound |
| `Flatdata.C19_write_crash_safe` | propext, Classical.choice, Quot.sound |
| `Flatdata.C20_extvec_exact` | propext, Classical.choice, Quot.sound |
| `Flatdata.C20_extvec_flushed` | propext, Classical.choice, Quot.sound |
| `Flatdata.C20_extvec_partial` | propext, Classical.choice, Quot.sound |
| `Flatdata.C20_extvec_refuted` | propext, Classical.choice, Quot.sound |
| `Flatdata.C20_extvec_small` | propext, Classical.choice, Quot.sound |
| `Flatdata.C20_multivec_exact` | propext, Classical.choice, Quot.sound |
| `Flatdata.C20_multivec_partial` | propext, Classical.choice, Quot.sound |
| `Flatdata.C20_multivec_refuted` | propext, Classical.choice, Quot.sound |
| `Flatdata.C21_grow_succeeds` | propext, Classical.choice, Quot.sound |
| `Flatdata.C21_later_read` | propext, Classical.choice, Quot.sound |
| `Flatdata.C21_new_process` | propext, Classical.choice, Quot.sound |
| `Flatdata.C21_roundtrip` | propext, Classical.choice, Quot.sound |
| `Flatdata.C22_faults` | propext, Classical.choice, Quot.sound |
| `Flatdata.C23_extvec_exact` | propext, Classical.choice, Quot.sound |
| `Flatdata.C23_extvec_partial` | propext, Classical.choice, Quot.sound |
| `Flatdata.C23_extvec_refuted` | propext, Classical.choice, Quot.sound |
| `Flatdata.C23_multivec_exact` | propext, Classical.choice, Quot.sound |
| `Flatdata.C23_multivec_partial` | propext, Classical.choice, Quot.sound |
| `Flatdata.C23_multivec_refuted` | propext, Classical.choice, Quot.sound |
| `Flatdata.C24_extvec` | propext, Classical.choice, Quot.sound |
| `Flatdata.C24_multivec` | propext, Classical.choice, Quot.sound |
| `Flatdata.C25_after_close` | propext, Classical.choice, Quot.sound |
| `Flatdata.C25_clone_overwrites` | propext, Classical.choice, Quot.sound |
| `Flatdata.C25_clone_panics` | propext, Classical.choice, Quot.sound |
| `Flatdata.C25_closed_errors_partial` | propext, Classical.choice, Quot.sound |
| `Flatdata.C25_drop_exact` | none |
| `Flatdata.C25_multivec_closed_errors_partial` | propext, Classical.choice, Quot.sound |
| `Flatdata.C25_multivec_drop_exact` | none |
| `Flatdata.C25_multivec_unclosed_panics` | propext, Classical.choice, Quot.sound |
| `Flatdata.C25_refuted` | propext, Classical.choice, Quot.sound |
| `Flatdata.C25_unclosed_panics` | propext, Classical.choice, Quot.sound |
| `Flatdata.C26_add_succeeds` | propext, Classical.choice, Quot.sound |
| `Flatdata.C26_faults_partial` | propext, Classical.choice, Quot.sound |
| `Flatdata.C26_grow_succeeds` | propext, Classical.choice, Quot.sound |
| `Flatdata.C26_later_read_partial` | propext, Classical.choice, Quot.sound |
| `Flatdata.C26_new_process_partial` | propext, Classical.choice, Quot.sound |
| `Flatdata.C26_refuted` | propext, Classical.choice, Quot.sound |
| `Flatdata.C26_roundtrip_exact` | propext, Classical.choice, Quot.sound |
| `Flatdata.C26_roundtrip_partial` | propext, Classical.choice, Quot.sound |
| `Flatdata.C27_index_exact` | propext, Classical.choice, Quot.sound |
| `Flatdata.C27_index_partial` | propext, Classical.choice, Quot.sound |
| `Flatdata.C27_refuted` | propext, Classical.choice, Quot.sound |
| `Flatdata.C28_at` | propext, Classical.choice, Quot.sound |
| `Flatdata.C28_at_exact` | propext, Classical.choice, Quot.sound |
| `Flatdata.C28_at_out_partial` | propext, Classical.choice, Quot.sound |
| `Flatdata.C28_at_release` | propext, Classical.choice, Quot.sound |
| `Flatdata.C28_iteration` | propext, Classical.choice, Quot.sound |
| `Flatdata.C28_len` | propext, Quot.sound |
| `Flatdata.C28_refuted` | propext, Classical.choice, Quot.sound |
| `Flatdata.C28_refuted_release` | propext, Quot.sound |
| `Flatdata.C28_slice` | propext, Classical.choice, Quot.sound |
| `Flatdata.C28_slice_broken` | propext, Classical.choice, Quot.sound |
| `Flatdata.C28_slice_exact` | propext, Classical.choice, Quot.sound |
| `Flatdata.C28_slice_out_partial` | propext, Classical.choice, Quot.sound |
| `Flatdata.C28_slice_release` | propext, Quot.sound |
| `Flatdata.C29_at` | propext, Classical.choice, Quot.sound |
| `Flatdata.C29_iteration` | propext, Quot.sound |
| `Flatdata.C29_next` | propext, Quot.sound |
| `Flatdata.C30_already_exists_partial` | propext, Classical.choice, Quot.sound |
| `Flatdata.C30_builder_created` | propext, Classical.choice, Quot.sound |
| `Flatdata.C30_builder_partial` | propext, Classical.choice, Quot.sound |
| `Flatdata.C30_builder_second_partial` | propext, Classical.choice, Quot.sound |
| `Flatdata.C30_created` | propext, Classical.choice, Quot.sound |
| `Flatdata.C30_disk_exact` | propext, Classical.choice, Quot.sound |
| `Flatdata.C30_faulty_refuted` | propext, Classical.choice, Quot.sound |
| `Flatdata.C30_second_fails_partial` | propext, Classical.choice, Quot.sound |
| `Flatdata.C30_sub_disk_partial` | propext, Classical.choice, Quot.sound |
| `Flatdata.C31_open` | propext, Classical.choice, Quot.sound |
| `Flatdata.C31_open_exact` | propext, Classical.choice, Quot.sound |
| `Flatdata.C31_open_partial` | propext, Classical.choice, Quot.sound |
| `Flatdata.C31_refuted` | propext, Classical.choice, Quot.sound |
| `Flatdata.C32_again` | propext, Classical.choice, Quot.sound |
| `Flatdata.C32_build_and_open` | propext, Classical.choice, Quot.sound |
| `Flatdata.C32_build_succeeds` | propext, Classical.choice, Quot.sound |
| `Flatdata.C32_histories` | propext, Classical.choice, Quot.sound |
| `Flatdata.C32_new_process` | propext, Classical.choice, Quot.sound |
| `Flatdata.C32_roundtrip` | propext, Classical.choice, Quot.sound |
| `Flatdata.C33_disk_partial` | propext, Classical.choice, Quot.sound |
| `Flatdata.C33_exact` | propext, Classical.choice, Quot.sound |
| `Flatdata.C33_memory_never` | propext, Classical.choice, Quot.sound |
| `Flatdata.C33_refuted` | propext, Classical.choice, Quot.sound |
| `Flatdata.C34_disk_exact` | propext, Classical.choice, Quot.sound |
| `Flatdata.C34_disk_new_process_partial` | propext, Classical.choice, Quot.sound |
| `Flatdata.C34_disk_unread_partial` | propext, Classical.choice, Quot.sound |
| `Flatdata.C34_memory_exact` | propext, Classical.choice, Quot.sound |
| `Flatdata.C34_refuted_disk` | propext, Classical.choice, Quot.sound |
| `Flatdata.C34_refuted_memory` | propext, Classical.choice, Quot.sound |
| `Flatdata.C35_disk_created` | propext, Classical.choice, Quot.sound |
| `Flatdata.C35_disk_exact` | propext, Classical.choice, Quot.sound |
| `Flatdata.C35_disk_partial` | propext, Classical.choice, Quot.sound |
| `Flatdata.C35_disk_rewritten` | propext, Classical.choice, Quot.sound |
| `Flatdata.C35_memory` | propext, Classical.choice, Quot.sound |
| `Flatdata.C35_refuted_disk` | propext, Classical.choice, Quot.sound |
| `Flatdata.C36_close_fails` | propext, Classical.choice, Quot.sound |
| `Flatdata.C36_disk_not_lost` | propext, Classical.choice, Quot.sound |
| `Flatdata.C36_exact` | propext, Classical.choice, Quot.sound |
| `Flatdata.C36_multivec_close_fails` | propext, Classical.choice, Quot.sound |
| `Flatdata.C36_multivec_close_panics` | propext, Classical.choice, Quot.sound |
| `Flatdata.C36_multivec_exact` | propext, Classical.choice, Quot.sound |
| `Flatdata.C36_multivec_other_object_partial` | propext, Classical.choice, Quot.sound |
| `Flatdata.C36_multivec_read_fails_partial` | propext, Classical.choice, Quot.sound |
| `Flatdata.C36_other_object_partial` | propext, Classical.choice, Quot.sound |
| `Flatdata.C36_read_fails_partial` | propext, Classical.choice, Quot.sound |
| `Flatdata.C36_refuted_disk` | propext, Classical.choice, Quot.sound |
| `Flatdata.C36_refuted_memory` | propext, Classical.choice, Quot.sound |
| `Flatdata.C37_exact` | propext, Classical.choice, Quot.sound |
| `Flatdata.C37_multivec_ops` | propext, Classical.choice, Quot.sound |
| `Flatdata.C37_other_calls` | propext, Classical.choice, Quot.sound |
| `Flatdata.C37_places` | propext, Classical.choice, Quot.sound |
| `Flatdata.C37_refuted` | propext, Classical.choice, Quot.sound |
| `Flatdata.C37_schema_place` | propext, Classical.choice, Quot.sound |
| `Flatdata.C37_vector_ops` | propext, Classical.choice, Quot.sound |
| `Flatdata.C37_write_other` | propext, Classical.choice, Quot.sound |
| `Flatdata.C38_exact` | propext, Classical.choice, Quot.sound |
| `Flatdata.C38_interchangeable_partial` | propext, Classical.choice, Quot.sound |
| `Flatdata.C38_refuted` | propext, Classical.choice, Quot.sound |
| `Flatdata.C39_getter_exact` | propext, Classical.choice, Quot.sound |
| `Flatdata.C39_refuted` | propext, Classical.choice, Quot.sound |
| `Flatdata.C39_struct_exact` | propext, Classical.choice, Quot.sound |
| `Flatdata.C39_struct_partial` | propext, Classical.choice, Quot.sound |
| `Flatdata.C40_archive_partial` | propext, Classical.choice, Quot.sound |
| `Flatdata.C40_copy_succeeds_partial` | propext, Classical.choice, Quot.sound |
| `Flatdata.C40_external_vector_partial` | propext, Classical.choice, Quot.sound |
| `Flatdata.C40_multivector_partial` | propext, Classical.choice, Quot.sound |
| `Flatdata.C40_refuted` | propext, Quot.sound |
| `Flatdata.C40_same_files_partial` | propext, Classical.choice, Quot.sound |
| `Flatdata.C40_struct_copy_partial` | propext, Classical.choice, Quot.sound |
| `Flatdata.C40_struct_exact` | propext, Classical.choice, Quot.sound |
| `Flatdata.C40_struct_partial` | propext, Classical.choice, Quot.sound |
| `Flatdata.C40_vector_partial` | propext, Classical.choice, Quot.sound |
| `Flatdata.C41_deterministic` | propext, Classical.choice, Quot.sound |
| `Flatdata.C41_empty` | propext, Classical.choice, Quot.sound |
| `Flatdata.C41_exact` | propext, Classical.choice, Quot.sound |
| `Flatdata.C41_histories` | propext, Classical.choice, Quot.sound |
| `Flatdata.C41_multivector` | propext, Classical.choice, Quot.sound |
| `Flatdata.C41_vector` | propext, Classical.choice, Quot.sound |
| `Flatdata.C42_no_other_files` | propext, Classical.choice, Quot.sound |
| `Flatdata.C43_archive_partial` | propext, Classical.choice, Quot.sound |
| `Flatdata.C43_exact` | propext, Classical.choice, Quot.sound |
| `Flatdata.C43_refuted` | propext, Classical.choice, Quot.sound |
| `Flatdata.C44_complete_or_error` | propext, Classical.choice, Quot.sound |
| `Flatdata.C44_interrupted_partial` | propext, Classical.choice, Quot.sound |
| `Flatdata.C44_refuted` | propext, Classical.choice, Quot.sound |
| `Flatdata.C44_setters` | propext, Classical.choice, Quot.sound |
| `Flatdata.C45_enumerate` | propext, Quot.sound |
| `Flatdata.C45_iterators_partial` | propext, Classical.choice, Quot.sound |
| `Flatdata.C45_loops` | propext |
| `Flatdata.C45_map` | propext |
| `Flatdata.C45_nth` | propext, Quot.sound |
| `Flatdata.C45_refuted` | propext, Quot.sound |
| `Flatdata.C45_rev` | propext, Quot.sound |
| `Flatdata.C45_skip_panics` | propext, Quot.sound |
| `Flatdata.C45_skip_partial` | propext |
| `Flatdata.C45_skip_take_collect` | propext, Classical.choice, Quot.sound |
| `Flatdata.C45_take_forward` | propext |
| `Flatdata.C45_take_len` | propext, Quot.sound |
| `Flatdata.C45_take_partial` | propext, Quot.sound |
| `Flatdata.C45_zip_len` | propext, Quot.sound |
| `Flatdata.C45_zip_partial` | propext, Quot.sound |
| `Flatdata.C46_build` | propext, Classical.choice, Quot.sound |
| `Flatdata.C46_calls` | propext, Classical.choice, Quot.sound |
| `Flatdata.C46_copy` | propext, Quot.sound |
| `Flatdata.C46_programs` | propext, Classical.choice, Quot.sound |
| `Flatdata.C47_build` | propext, Classical.choice, Quot.sound |
| `Flatdata.C47_calls` | propext, Classical.choice, Quot.sound |
| `Flatdata.C47_copy` | propext, Quot.sound |
| `Flatdata.C47_programs` | propext, Classical.choice, Quot.sound |
| `Flatdata.C48_calls` | propext, Classical.choice, Quot.sound |
| `Flatdata.C48_initial` | propext, Classical.choice, Quot.sound |
| `Flatdata.C48_programs` | propext, Classical.choice, Quot.sound |
| `Flatdata.C48_rule` | propext, Classical.choice, Quot.sound |
| `Flatdata.C48_stable` | propext, Classical.choice, Quot.sound |
| `Flatdata.C48_views` | propext, Classical.choice, Quot.sound |
| `Flatdata.C49_descriptions` | propext, Classical.choice, Quot.sound |
| `Flatdata.C49_names` | propext, Classical.choice, Quot.sound |
| `Flatdata.C49_never` | propext, Classical.choice, Quot.sound |
| `Flatdata.C49_not_found` | propext, Classical.choice, Quot.sound |
| `Flatdata.C49_open_partial` | propext, Classical.choice, Quot.sound |
| `Flatdata.C49_read_exact` | propext, Classical.choice, Quot.sound |
| `Flatdata.C49_read_partial` | propext, Classical.choice, Quot.sound |
| `Flatdata.C49_refuted` | propext, Classical.choice, Quot.sound |
| `Flatdata.C49_unique` | propext, Classical.choice, Quot.sound |
| `Flatdata.C50_both` | propext, Classical.choice, Quot.sound |
| `Flatdata.C50_open` | propext, Classical.choice, Quot.sound |
| `Flatdata.C50_other_directory` | propext, Classical.choice, Quot.sound |
| `Flatdata.C50_same_directory` | propext, Classical.choice, Quot.sound |
| `Flatdata.C50_view` | propext, Classical.choice, Quot.sound |
| `Flatdata.C51_complete_or_error` | propext, Classical.choice, Quot.sound |
| `Flatdata.C51_refuted` | propext, Classical.choice, Quot.sound |
| `Flatdata.C51_setters` | propext, Classical.choice, Quot.sound |
| `Flatdata.C51_shared_partial` | propext, Classical.choice, Quot.sound |
| `Flatdata.C52_exact` | propext, Classical.choice, Quot.sound |
| `Flatdata.C52_read_signed` | propext, Classical.choice, Quot.sound |
| `Flatdata.C52_read_unsigned` | propext, Classical.choice, Quot.sound |
| `Flatdata.C52_refuted` | propext, Classical.choice, Quot.sound |
| `Flatdata.C52_unsigned_partial` | propext, Classical.choice, Quot.sound |
| `Flatdata.C53_another` | propext, Classical.choice, Quot.sound |
| `Flatdata.C53_calls` | propext, Classical.choice, Quot.sound |
| `Flatdata.C53_other_directory` | propext, Classical.choice, Quot.sound |
| `Flatdata.C53_parallel` | propext, Classical.choice, Quot.sound |
| `Flatdata.C53_same_directory` | propext, Classical.choice, Quot.sound |
| `Flatdata.C54_after_partial` | propext, Classical.choice, Quot.sound |
| `Flatdata.C54_exact` | propext, Classical.choice, Quot.sound |
| `Flatdata.C54_late_partial` | propext, Classical.choice, Quot.sound |
| `Flatdata.C54_refuted` | propext, Classical.choice, Quot.sound |
| `Flatdata.C55_moved` | propext, Classical.choice, Quot.sound |
| `Flatdata.C55_yields` | propext, Classical.choice, Quot.sound |
| `Flatdata.C56_exists` | propext, Classical.choice, Quot.sound |
| `Flatdata.C56_harmless` | propext, Classical.choice, Quot.sound |
| `Flatdata.C56_open` | propext, Classical.choice, Quot.sound |
| `Flatdata.C56_open_again` | propext, Classical.choice, Quot.sound |
| `Flatdata.C56_read` | propext, Classical.choice, Quot.sound |
| `Flatdata.C56_repeat` | propext, Classical.choice, Quot.sound |
| `Flatdata.C56_repeat_read` | propext, Classical.choice, Quot.sound |
| `Flatdata.C56_retry` | propext, Classical.choice, Quot.sound |
| `Flatdata.C56_retry_read` | propext, Classical.choice, Quot.sound |
| `Flatdata.C57_interrupted_partial` | propext, Classical.choice, Quot.sound |
| `Flatdata.C57_interrupted_refuted` | propext, Classical.choice, Quot.sound |
| `Flatdata.C57_keeps_partial` | propext, Classical.choice, Quot.sound |
| `Flatdata.C57_open` | propext, Classical.choice, Quot.sound |
| `Flatdata.C57_outage_partial` | propext, Classical.choice, Quot.sound |
| `Flatdata.C57_prefix_free` | propext, Classical.choice, Quot.sound |
| `Flatdata.C57_refused_partial` | propext, Classical.choice, Quot.sound |
| `Flatdata.C57_refuted` | propext, Classical.choice, Quot.sound |
| `Flatdata.C57_shown_partial` | propext, Classical.choice, Quot.sound |
| `Flatdata.C58_append_calls` | propext, Classical.choice, Quot.sound |
| `Flatdata.C58_multi_append_calls` | propext, Classical.choice, Quot.sound |
| `Flatdata.C58_open` | propext, Classical.choice, Quot.sound |
| `Flatdata.C58_read` | propext, Classical.choice, Quot.sound |
| `Flatdata.C58_write_calls` | propext, Classical.choice, Quot.sound |
| `Flatdata.C59_complete_fits` | propext, Quot.sound |
| `Flatdata.C59_multi_ok` | propext, Classical.choice, Quot.sound |
| `Flatdata.C59_multi_partial` | propext, Classical.choice, Quot.sound |
| `Flatdata.C59_multi_refuted` | propext, Quot.sound |
| `Flatdata.C59_open_partial` | propext, Classical.choice, Quot.sound |
| `Flatdata.C59_read_exact` | propext, Classical.choice, Quot.sound |
| `Flatdata.C59_read_ok` | propext, Classical.choice, Quot.sound |
| `Flatdata.C59_read_refuted` | propext, Classical.choice, Quot.sound |
| `Flatdata.C59_view_partial` | propext, Quot.sound |
| `Flatdata.C59_view_refuted` | none |
| `Flatdata.C59_view_safe` | propext, Quot.sound |
| `Flatdata.C59_wide` | propext, Classical.choice, Quot.sound |
| `Flatdata.C60_busy` | none |
| `Flatdata.C60_disk_partial` | propext, Classical.choice, Quot.sound |
| `Flatdata.C60_disk_read` | propext, Classical.choice, Quot.sound |
| `Flatdata.C60_guards` | propext, Classical.choice, Quot.sound |
| `Flatdata.C60_memory_exact` | propext, Classical.choice, Quot.sound |
| `Flatdata.C60_memory_partial` | propext, Classical.choice, Quot.sound |
| `Flatdata.C60_refuted` | propext, Classical.choice, Quot.sound |
| `Flatdata.C61_alive_exact` | propext, Classical.choice, Quot.sound |
| `Flatdata.C61_bytes_stay` | propext, Classical.choice, Quot.sound |
| `Flatdata.C61_never_dangles` | propext, Classical.choice, Quot.sound |
| `Flatdata.C61_no_leak` | propext, Classical.choice, Quot.sound |
| `Flatdata.C61_readable` | propext, Classical.choice, Quot.sound |
| `Flatdata.C62_close_ok` | propext, Classical.choice, Quot.sound |
| `Flatdata.C62_debug` | propext, Classical.choice, Quot.sound |
| `Flatdata.C62_exact` | propext, Classical.choice, Quot.sound |
| `Flatdata.C62_grow_succeeds` | propext, Classical.choice, Quot.sound |
| `Flatdata.C62_lost` | propext, Classical.choice, Quot.sound |
| `Flatdata.C62_multi_close_ok` | propext, Classical.choice, Quot.sound |
| `Flatdata.C62_multi_same_partial` | propext, Classical.choice, Quot.sound |
| `Flatdata.C62_refuted` | propext, Classical.choice, Quot.sound |
| `Flatdata.C62_same_partial` | propext, Classical.choice, Quot.sound |
| `Flatdata.C62_wide` | propext, Classical.choice, Quot.sound |
| `Flatdata.C63_archive` | propext, Classical.choice, Quot.sound |
| `Flatdata.C63_grow` | none |
| `Flatdata.C63_multi_exact` | propext, Classical.choice, Quot.sound |
| `Flatdata.C63_multi_grow` | propext, Quot.sound |
| `Flatdata.C63_read` | propext, Classical.choice, Quot.sound |
| `Flatdata.C63_refuted` | propext, Classical.choice, Quot.sound |
| `Flatdata.C63_setters` | propext, Classical.choice, Quot.sound |
| `Flatdata.C63_subarchive` | propext, Classical.choice, Quot.sound |
| `Flatdata.C63_write_partial` | propext, Classical.choice, Quot.sound |
| `Flatdata.C64_complete_or_error` | propext, Classical.choice, Quot.sound |
| `Flatdata.C64_durable_refuted` | propext, Classical.choice, Quot.sound |
| `Flatdata.C64_outage_partial` | propext, Classical.choice, Quot.sound |
| `Flatdata.C64_refuted` | propext, Classical.choice, Quot.sound |
| `Flatdata.C64_setters` | propext, Classical.choice, Quot.sound |
| `Flatdata.C64_torn_refuted` | propext, Classical.choice, Quot.sound |
| `Flatdata.C65_diff_escaped` | propext, Classical.choice, Quot.sound |
| `Flatdata.C65_diff_refuted` | propext, Classical.choice, Quot.sound |
| `Flatdata.C65_distinct` | propext, Classical.choice, Quot.sound |
| `Flatdata.C65_named_exact` | propext, Classical.choice, Quot.sound |
| `Flatdata.C65_one_line` | propext, Classical.choice, Quot.sound |
| `Flatdata.C65_refuted` | propext, Classical.choice, Quot.sound |
| `Flatdata.C65_schemas_partial` | propext, Classical.choice, Quot.sound |
| `Flatdata.C66_build_exact` | propext, Classical.choice, Quot.sound |
| `Flatdata.C66_exact` | propext, Classical.choice, Quot.sound |
| `Flatdata.C66_moved` | propext, Classical.choice, Quot.sound |
| `Flatdata.C66_open` | propext, Classical.choice, Quot.sound |
| `Flatdata.C66_read` | propext, Classical.choice, Quot.sound |
| `Flatdata.C66_refuted` | propext, Classical.choice, Quot.sound |
| `Flatdata.C66_setters` | propext, Classical.choice, Quot.sound |
| `Flatdata.C66_text_partial` | propext, Classical.choice, Quot.sound |
| `Flatdata.C66_unreadable` | propext, Classical.choice, Quot.sound |
| `Flatdata.C66_vectors` | propext, Classical.choice, Quot.sound |
| `Flatdata.C67_close_ext` | propext, Classical.choice, Quot.sound |
| `Flatdata.C67_close_multi` | propext, Classical.choice, Quot.sound |
| `Flatdata.C67_create_multi` | propext, Quot.sound |
| `Flatdata.C67_guard_create` | propext, Classical.choice, Quot.sound |
| `Flatdata.C67_guard_ext` | propext, Classical.choice, Quot.sound |
| `Flatdata.C67_guard_multi` | propext, Classical.choice, Quot.sound |
| `Flatdata.C67_guard_same` | propext, Classical.choice, Quot.sound |
| `Flatdata.C67_leave_exact` | propext, Quot.sound |
| `Flatdata.C67_no_abort` | propext |
| `Flatdata.C67_unwind` | propext |
| `Flatdata.C68_again` | propext, Quot.sound |
| `Flatdata.C68_erase` | propext, Classical.choice, Quot.sound |
| `Flatdata.C68_idle_exact` | propext, Quot.sound |
| `Flatdata.C68_idle_refuted` | propext, Classical.choice, Quot.sound |
| `Flatdata.C68_refuted` | propext, Classical.choice, Quot.sound |
| `Flatdata.C68_reserve_exact` | propext, Classical.choice, Quot.sound |
| `Flatdata.C68_reserve_partial` | propext, Classical.choice, Quot.sound |
| `Flatdata.C69_half` | propext, Quot.sound |
| `Flatdata.C69_refuted` | propext, Quot.sound |
| `Flatdata.C69_same` | propext, Classical.choice, Quot.sound |
| `Flatdata.C69_succeeds` | propext, Classical.choice, Quot.sound |
| `Flatdata.C69_vector_partial` | propext, Classical.choice, Quot.sound |
| `Flatdata.C69_with_len_exact` | propext, Quot.sound |
| `Flatdata.C70_archives` | propext, Classical.choice, Quot.sound |
| `Flatdata.C70_calls` | propext, Classical.choice, Quot.sound |
| `Flatdata.C70_multi_exact` | propext, Classical.choice, Quot.sound |
| `Flatdata.C70_vector_exact` | propext, Classical.choice, Quot.sound |
| `Flatdata.C70_vectors` | propext, Classical.choice, Quot.sound |
| `Flatdata.C70_write_exact` | propext, Classical.choice, Quot.sound |
| `Flatdata.C71_exact` | propext, Classical.choice, Quot.sound |
| `Flatdata.C71_multivec_partial` | propext, Classical.choice, Quot.sound |
| `Flatdata.C71_partial` | propext, Classical.choice, Quot.sound |
| `Flatdata.C71_refuted` | propext, Classical.choice, Quot.sound |
| `Flatdata.C72_exact` | propext, Classical.choice, Quot.sound |
| `Flatdata.C72_lost` | propext, Classical.choice, Quot.sound |
| `Flatdata.C72_other` | propext, Classical.choice, Quot.sound |
| `Flatdata.C72_shown` | propext, Classical.choice, Quot.sound |
| `Flatdata.C72_twice` | propext, Classical.choice, Quot.sound |
