# Axioms of every claimed theorem

Generated by `tools/gen_axioms.py` from `#print axioms`; no other axiom occurs anywhere in the project.

| theorem | axioms |
|---|---|
| `Verif.C01_encode_decode` | propext, Classical.choice, Quot.sound |
| `Verif.C01_decode_encode` | propext, Classical.choice, Quot.sound |
| `Verif.C01_wrong_size` | propext, Quot.sound |
| `Verif.C01_spec_determines` | propext, Quot.sound |
| `Verif.C02_out_of_range_refused` | propext, Classical.choice, Quot.sound |
| `Verif.C02_never_wrapped` | propext, Classical.choice, Quot.sound |
| `Verif.C03_sentinels_partial` | propext, Classical.choice, Quot.sound |
| `Verif.C03_u64_partial` | propext, Classical.choice, Quot.sound |
| `Verif.C03_violated` | propext, Classical.choice, Quot.sound |
| `Verif.C03_uint64_unimpl_reads_minus_one` | propext, Classical.choice, Quot.sound |
| `Verif.C03_acc64_high_reads_negative` | propext, Classical.choice, Quot.sound |
| `Verif.C04_string_roundtrip_partial` | propext, Classical.choice, Quot.sound |
| `Verif.C04_short_partial` | propext, Classical.choice, Quot.sound |
| `Verif.C04_violated` | propext, Classical.choice, Quot.sound |
| `Verif.C04_non_latin1_refused` | propext, Classical.choice, Quot.sound |
| `Verif.C05_exact_size_partial` | propext, Classical.choice, Quot.sound |
| `Verif.C05_violated` | propext, Classical.choice, Quot.sound |
| `Verif.C05_eui48_never_encodes` | propext, Classical.choice, Quot.sound |
| `Verif.C06_ipv6_roundtrip` | propext, Classical.choice, Quot.sound |
| `Verif.C06_eui48_roundtrip` | propext, Classical.choice, Quot.sound |
| `Verif.C07_appended_crc` | propext, Classical.choice, Quot.sound |
| `Verif.C07_check_iff_valid` | propext, Classical.choice, Quot.sound |
| `Verif.C08_burst_detected` | propext, Classical.choice, Quot.sound |
| `Verif.C08_byte_error_detected` | propext, Classical.choice, Quot.sound |
| `Verif.C08_odd_errors_detected` | propext, Classical.choice, Quot.sound |
| `Verif.C08_three_bit_errors_detected` | propext, Classical.choice, Quot.sound |
| `Verif.C09_requests` | propext, Classical.choice, Quot.sound |
| `Verif.C09_terminates` | propext, Classical.choice, Quot.sound |
| `Verif.C10_fragmentation` | propext, Classical.choice, Quot.sound |
| `Verif.C11_read` | propext, Classical.choice, Quot.sound |
| `Verif.C11_read_sound` | propext, Classical.choice, Quot.sound |
| `Verif.C12_read_errors` | propext, Classical.choice, Quot.sound |
| `Verif.C12_write_errors` | propext, Classical.choice, Quot.sound |
| `Verif.C13_rtu_violated` | propext, Quot.sound |
| `Verif.C13_rtu_violated_slave` | propext, Quot.sound |
| `Verif.C13_rtu_none` | propext, Quot.sound |
| `Verif.C13_rtu_partial` | propext, Classical.choice, Quot.sound |
| `Verif.C13_tcp_violated` | propext, Quot.sound |
| `Verif.C13_tcp_unchecked` | propext, Quot.sound |
| `Verif.C13_tcp_partial` | propext, Classical.choice, Quot.sound |
| `Verif.C14_write` | propext, Classical.choice, Quot.sound |
| `Verif.C14_write_sound` | propext, Classical.choice, Quot.sound |
| `Verif.C14_write_echoed` | propext, Classical.choice, Quot.sound |
| `Verif.C15_requests` | propext, Classical.choice, Quot.sound |
| `Verif.C15_terminates` | propext, Classical.choice, Quot.sound |
| `Verif.C16_fragmentation` | propext, Classical.choice, Quot.sound |
| `Verif.C17_read` | propext, Classical.choice, Quot.sound |
| `Verif.C17_read_sound` | propext, Classical.choice, Quot.sound |
| `Verif.C17_history` | propext, Classical.choice, Quot.sound |
| `Verif.C18_long_writes_fail` | propext, Quot.sound |
| `Verif.C18_violated` | propext, Quot.sound |
| `Verif.C18_write_partial` | propext, Classical.choice, Quot.sound |
| `Verif.C18_sound_partial` | propext, Classical.choice, Quot.sound |
| `Verif.C19_stale_reply_returned` | propext, Classical.choice, Quot.sound |
| `Verif.C19_history_violated` | propext, Quot.sound |
| `Verif.C19_violated` | propext, Quot.sound |
| `Verif.C19_fresh_connection_partial` | propext, Quot.sound |
| `Verif.C20_failed_connect_leaks` | propext, Quot.sound |
| `Verif.C20_violated` | propext, Quot.sound |
| `Verif.C20_released_partial` | propext, Classical.choice, Quot.sound |
| `Verif.C21_stuck` | propext, Classical.choice, Quot.sound |
| `Verif.C21_violated` | propext, Classical.choice, Quot.sound |
| `Verif.C21_close_recovers_partial` | propext, Classical.choice, Quot.sound |
| `Verif.C21_reconnect_partial` | propext, Classical.choice, Quot.sound |
| `Verif.C22_violated_duplicate` | propext |
| `Verif.C22_violated_double_close` | propext |
| `Verif.C22_sharing_partial` | propext, Classical.choice, Quot.sound |
| `Verif.C22_mismatch_refused` | propext |
| `Verif.C22_parameters` | propext, Classical.choice, Quot.sound |
| `Verif.C23_function` | propext |
| `Verif.C23_read` | propext, Classical.choice, Quot.sound |
| `Verif.C23_read_negative` | propext, Classical.choice, Quot.sound |
| `Verif.C23_write` | propext, Classical.choice, Quot.sound |
| `Verif.C23_write_odd` | propext, Quot.sound |
| `Verif.C23_history` | propext, Classical.choice, Quot.sound |
| `Verif.C23_violated_float_count` | propext |
| `Verif.C24_violated` | propext, Quot.sound |
| `Verif.C24_unchanged_partial` | propext, Classical.choice, Quot.sound |
| `Verif.C24_damage_partial` | propext, Classical.choice, Quot.sound |
| `Verif.C25_violated` | propext, Classical.choice, Quot.sound |
| `Verif.C25_load_partial` | propext, Classical.choice, Quot.sound |
| `Verif.C25_regs_add` | propext, Classical.choice, Quot.sound |
| `Verif.C26_violated` | propext |
| `Verif.C26_roundtrip_partial` | propext, Classical.choice, Quot.sound |
| `Verif.C27_violated` | propext |
| `Verif.C27_violated_symmetry` | propext |
| `Verif.C27_exact_partial` | propext, Classical.choice, Quot.sound |
| `Verif.C28_layout` | propext, Classical.choice, Quot.sound |
| `Verif.C28_accepted` | propext, Classical.choice, Quot.sound |
| `Verif.C28_unknown` | propext |
| `Verif.C29_terminates_partial` | propext, Classical.choice, Quot.sound |
| `Verif.C29_violated_general` | propext, Quot.sound |
| `Verif.C29_violated` | propext, Quot.sound |
| `Verif.C30_resolved` | propext, Classical.choice, Quot.sound |
| `Verif.C30_unresolved` | propext, Quot.sound |
| `Verif.C30_unresolved_repeating` | propext, Classical.choice, Quot.sound |
| `Verif.C31_cover` | propext, Classical.choice, Quot.sound |
| `Verif.C31_whole` | propext, Classical.choice, Quot.sound |
| `Verif.C32_read` | propext, Classical.choice, Quot.sound |
| `Verif.C32_values_partial` | propext, Classical.choice, Quot.sound |
| `Verif.C32_memory` | propext, Classical.choice, Quot.sound |
| `Verif.C32_loaded` | propext, Classical.choice, Quot.sound |
| `Verif.C32_devices` | propext, Classical.choice, Quot.sound |
| `Verif.C33_refreshed_partial` | propext, Classical.choice, Quot.sound |
| `Verif.C33_violated` | propext, Classical.choice, Quot.sound |
| `Verif.C33_raises` | propext, Classical.choice, Quot.sound |
| `Verif.C33_wrong_size` | propext, Classical.choice, Quot.sound |
| `Verif.C34_float_value` | propext, Classical.choice, Quot.sound |
| `Verif.C34_violated` | propext, Classical.choice, Quot.sound |
| `Verif.C34_unscaled_partial` | propext, Classical.choice, Quot.sound |
| `Verif.C34_get_partial` | propext, Classical.choice, Quot.sound |
| `Verif.C34_set_partial` | propext, Classical.choice, Quot.sound |
| `Verif.C34_set_get_partial` | propext, Classical.choice, Quot.sound |
| `Verif.C34_idempotent_partial` | propext, Classical.choice, Quot.sound |
| `Verif.C34_idempotent_sharp` | propext, Classical.choice, Quot.sound |
| `Verif.C34_refused` | propext, Classical.choice, Quot.sound |
| `Verif.C34_special` | propext, Classical.choice, Quot.sound |
| `Verif.C34_tie` | propext, Classical.choice, Quot.sound |
| `Verif.C34_truncates` | propext, Classical.choice, Quot.sound |
| `Verif.C34_text` | propext, Classical.choice, Quot.sound |
| `Verif.C35_write_partial` | propext, Classical.choice, Quot.sound |
| `Verif.C35_violated` | propext, Classical.choice, Quot.sound |
| `Verif.C36_returns_partial` | propext, Classical.choice, Quot.sound |
| `Verif.C36_raises_partial` | propext, Classical.choice, Quot.sound |
| `Verif.C36_violated` | propext, Classical.choice, Quot.sound |
| `Verif.C36_point` | propext, Classical.choice, Quot.sound |
| `Verif.C36_scale_points_ignored` | propext, Classical.choice, Quot.sound |
| `Verif.C37_encoded_partial` | propext, Classical.choice, Quot.sound |
| `Verif.C37_write_read_partial` | propext, Classical.choice, Quot.sound |
| `Verif.C37_loaded_partial` | propext, Classical.choice, Quot.sound |
| `Verif.C37_violated` | propext, Classical.choice, Quot.sound |
| `Verif.C38_scan_partial` | propext, Classical.choice, Quot.sound |
| `Verif.C38_violated` | propext, Classical.choice, Quot.sound |
| `Verif.C38_kept` | propext, Quot.sound |
| `Verif.C39_terminates_partial` | propext, Classical.choice, Quot.sound |
| `Verif.C39_rtu_partial` | propext, Classical.choice, Quot.sound |
| `Verif.C39_tcp_partial` | propext, Classical.choice, Quot.sound |
| `Verif.C39_mapped_partial` | propext, Classical.choice, Quot.sound |
| `Verif.C39_violated` | propext, Quot.sound |
| `Verif.C40_first_partial` | propext, Quot.sound |
| `Verif.C40_none` | propext |
| `Verif.C40_rescan_fails` | propext |
| `Verif.C40_rescan_violated` | propext, Classical.choice, Quot.sound |
| `Verif.C40_probe_violated` | propext, Quot.sound |
| `Verif.C41_roundtrip_partial` | propext, Classical.choice, Quot.sound |
| `Verif.C41_exact_partial` | propext, Classical.choice, Quot.sound |
| `Verif.C41_single` | propext, Classical.choice, Quot.sound |
| `Verif.C41_errors` | propext, Classical.choice, Quot.sound |
| `Verif.C41_document` | propext, Classical.choice, Quot.sound |
| `Verif.C41_values_partial` | propext, Classical.choice, Quot.sound |
| `Verif.C41_written` | propext, Classical.choice, Quot.sound |
| `Verif.C41_violated` | propext, Classical.choice, Quot.sound |
| `Verif.C41_unimplemented` | propext, Classical.choice, Quot.sound |
| `Verif.C42_tree_partial` | propext, Classical.choice, Quot.sound |
| `Verif.C42_text_partial` | propext, Classical.choice, Quot.sound |
| `Verif.C42_model_index_fails` | propext, Classical.choice, Quot.sound |
| `Verif.C42_control_fails` | propext, Quot.sound |
| `Verif.C42_model_add_fails` | propext, Classical.choice, Quot.sound |
| `Verif.C42_time_lost` | propext, Classical.choice, Quot.sound |
| `Verif.C42_errors` | propext, Classical.choice, Quot.sound |
| `Verif.C42_return_lost` | propext, Classical.choice, Quot.sound |
| `Verif.C42_violated` | propext, Classical.choice, Quot.sound |
| `Verif.C42_index_zero_lost` | propext, Classical.choice, Quot.sound |
| `Verif.C43_first_partial` | propext, Classical.choice, Quot.sound |
| `Verif.C43_violated` | propext, Quot.sound |
| `Verif.C43_wrong_file` | none |
| `Verif.C44_roundtrip` | propext, Classical.choice, Quot.sound |
| `Verif.C44_injective` | propext, Classical.choice, Quot.sound |
| `Verif.C44_form` | propext, Classical.choice, Quot.sound |
| `Verif.C45_never_cached` | propext, Classical.choice, Quot.sound |
| `Verif.C45_same_definition_partial` | propext, Classical.choice, Quot.sound |
| `Verif.C45_definition_file_partial` | propext, Classical.choice, Quot.sound |
| `Verif.C45_violated` | propext, Classical.choice, Quot.sound |
| `Verif.C46_accepts` | propext, Classical.choice, Quot.sound |
| `Verif.C46_refused` | propext, Classical.choice, Quot.sound |
| `Verif.C46_unique_ids` | propext, Classical.choice, Quot.sound |
| `Verif.C46_without_model` | propext, Quot.sound |
| `Verif.C47_partial` | propext, Classical.choice, Quot.sound |
| `Verif.C47_instances` | propext, Classical.choice, Quot.sound |
| `Verif.C47_read` | propext, Classical.choice, Quot.sound |
| `Verif.C47_models` | propext, Classical.choice, Quot.sound |
| `Verif.C47_closed` | propext, Classical.choice, Quot.sound |
| `Verif.C47_points_name` | propext, Classical.choice, Quot.sound |
| `Verif.C47_violated` | propext, Classical.choice, Quot.sound |
| `Verif.C48_false_means_equal` | propext, Classical.choice, Quot.sound |
| `Verif.C48_no_error_partial` | propext, Classical.choice, Quot.sound |
| `Verif.C48_differs_partial` | propext, Classical.choice, Quot.sound |
| `Verif.C48_equal_partial` | propext, Classical.choice, Quot.sound |
| `Verif.C48_loaded` | propext, Classical.choice, Quot.sound |
| `Verif.C48_unknown_model` | propext, Classical.choice, Quot.sound |
| `Verif.C48_violated` | propext, Classical.choice, Quot.sound |
| `Verif.C48_symbols` | propext, Classical.choice, Quot.sound |
| `Verif.C48_scale_unseen` | propext, Classical.choice, Quot.sound |
| `Verif.C48_nan` | propext, Classical.choice, Quot.sound |
| `Verif.C49_restored_partial` | propext, Classical.choice, Quot.sound |
| `Verif.C49_paths_partial` | propext |
| `Verif.C49_violated` | propext, Quot.sound |
| `Verif.C50_literal` | propext, Classical.choice, Quot.sound |
| `Verif.C50_refused` | propext, Classical.choice, Quot.sound |
| `Verif.C50_unique` | propext, Classical.choice, Quot.sound |
| `Verif.C50_decimal` | propext, Classical.choice, Quot.sound |
| `Verif.C50_int` | propext, Classical.choice, Quot.sound |
| `Verif.C51_read_limit` | propext, Classical.choice, Quot.sound |
| `Verif.C51_write_violated` | propext, Quot.sound |
| `Verif.C51_write_refused` | propext, Quot.sound |
| `Verif.C51_write_limit_partial` | propext, Classical.choice, Quot.sound |
| `Verif.C52_rtu_write_partial` | propext, Quot.sound |
| `Verif.C52_rtu_read_fails` | propext, Quot.sound |
| `Verif.C52_rtu_write_flag_fails` | propext, Quot.sound |
| `Verif.C52_tcp_read_fails` | propext, Quot.sound |
| `Verif.C52_tcp_write_fails` | propext, Quot.sound |
| `Verif.C52_off` | propext, Quot.sound |
| `Verif.C52_witness` | propext, Quot.sound |
| `Verif.C52_violated` | propext, Quot.sound |
| `Verif.C53_read_errors` | propext, Classical.choice, Quot.sound |
| `Verif.C53_unreachable` | propext, Classical.choice, Quot.sound |
| `Verif.C53_write_errors` | propext, Classical.choice, Quot.sound |
| `Verif.C54_connection_partial` | propext, Classical.choice, Quot.sound |
| `Verif.C54_violated` | propext, Classical.choice, Quot.sound |
| `Verif.C55_read_all` | propext, Classical.choice, Quot.sound |
| `Verif.C55_loaded` | propext, Classical.choice, Quot.sound |
| `Verif.C55_failure` | propext, Classical.choice, Quot.sound |
| `Verif.C56_attributes` | propext, Classical.choice, Quot.sound |
| `Verif.C56_texts` | propext, Classical.choice, Quot.sound |
| `Verif.C56_model_texts` | propext, Classical.choice, Quot.sound |
| `Verif.C56_symbols_partial` | propext, Classical.choice, Quot.sound |
| `Verif.C56_symbols_violated` | propext, Classical.choice, Quot.sound |
| `Verif.C56_unknown_symbols` | propext |
| `Verif.C57_points_partial` | propext, Classical.choice, Quot.sound |
| `Verif.C57_blocks_partial` | propext, Classical.choice, Quot.sound |
| `Verif.C57_unknown_partial` | propext, Classical.choice, Quot.sound |
| `Verif.C57_name` | propext, Classical.choice, Quot.sound |
| `Verif.C57_errors` | propext, Classical.choice, Quot.sound |
| `Verif.C57_violated` | propext, Classical.choice, Quot.sound |
| `Verif.C58_rtu` | propext, Classical.choice, Quot.sound |
| `Verif.C58_rtu_memory` | propext, Classical.choice, Quot.sound |
| `Verif.C58_tcp` | propext, Classical.choice, Quot.sound |
| `Verif.C58_tcp_memory` | propext, Classical.choice, Quot.sound |
| `Verif.C58_mapped` | propext, Classical.choice, Quot.sound |
| `Verif.C59_same_data` | propext, Classical.choice, Quot.sound |
| `Verif.C59_reread` | propext, Classical.choice, Quot.sound |
| `Verif.C59_rewrite` | propext, Classical.choice, Quot.sound |
| `Verif.C59_read_write` | propext, Classical.choice, Quot.sound |
| `Verif.C60_sent` | propext, Classical.choice, Quot.sound |
| `Verif.C60_marks_partial` | propext, Classical.choice, Quot.sound |
| `Verif.C60_values_partial` | propext, Classical.choice, Quot.sound |
| `Verif.C60_write_partial` | propext, Classical.choice, Quot.sound |
| `Verif.C60_read_overwrites` | propext, Classical.choice, Quot.sound |
| `Verif.C60_stuck` | propext, Classical.choice, Quot.sound |
| `Verif.C60_violated` | propext, Classical.choice, Quot.sound |
| `Verif.C60_failed_write` | propext, Classical.choice, Quot.sound |
| `Verif.C61_assign` | propext, Classical.choice, Quot.sound |
| `Verif.C61_nearest` | propext, Classical.choice, Quot.sound |
| `Verif.C61_exact` | propext, Classical.choice, Quot.sound |
| `Verif.C61_tie` | propext, Classical.choice, Quot.sound |
| `Verif.C61_overflow` | propext, Classical.choice, Quot.sound |
| `Verif.C61_special` | propext, Classical.choice, Quot.sound |
| `Verif.C61_bad_text` | propext, Classical.choice, Quot.sound |
| `Verif.C61_violated` | propext, Classical.choice, Quot.sound |
| `Verif.C61_write_read_partial` | propext, Classical.choice, Quot.sound |
| `Verif.C62_careful_partial` | propext, Quot.sound |
| `Verif.C62_single_partial` | propext, Quot.sound |
| `Verif.C62_violated` | propext, Quot.sound |
| `Verif.C62_clear_text` | propext, Quot.sound |
| `Verif.C63_connect_partial` | propext, Quot.sound |
| `Verif.C63_no_certificate` | propext |
| `Verif.C63_skip_verifies` | propext |
| `Verif.C63_violated` | propext |
| `Verif.C63_skip_violated` | propext |
| `Verif.C63_plain` | propext, Quot.sound |
| `Verif.C63_transparent` | propext, Quot.sound |
| `Verif.C64_created_partial` | propext, Classical.choice, Quot.sound |
| `Verif.C64_rtu_possible` | propext, Classical.choice, Quot.sound |
| `Verif.C64_others_possible` | propext, Classical.choice, Quot.sound |
| `Verif.C64_map_error` | propext, Classical.choice, Quot.sound |
| `Verif.C64_unknown_type` | propext, Classical.choice, Quot.sound |
| `Verif.C64_violated` | propext, Classical.choice, Quot.sound |
| `Verif.C64_timeout` | propext, Classical.choice, Quot.sound |
| `Verif.C64_timeout_shared` | propext, Classical.choice, Quot.sound |
| `Verif.C64_released` | propext, Classical.choice, Quot.sound |
| `Verif.C64_failed_scan` | propext, Classical.choice, Quot.sound |
| `Verif.C64_device_name` | propext, Classical.choice, Quot.sound |
| `Verif.C65_model_partial` | propext, Classical.choice, Quot.sound |
| `Verif.C65_device_partial` | propext, Classical.choice, Quot.sound |
| `Verif.C65_duplicates` | propext, Classical.choice, Quot.sound |
| `Verif.C65_violated` | propext, Classical.choice, Quot.sound |
| `Verif.C66_report_partial` | propext, Classical.choice, Quot.sound |
| `Verif.C66_unknown` | propext, Classical.choice, Quot.sound |
| `Verif.C66_read_partial` | propext, Classical.choice, Quot.sound |
| `Verif.C66_violated` | propext, Classical.choice, Quot.sound |
| `Verif.C67_items` | propext, Classical.choice, Quot.sound |
| `Verif.C67_block_items` | propext, Classical.choice, Quot.sound |
| `Verif.C67_hidden_methods` | propext, Classical.choice, Quot.sound |
| `Verif.C67_program_partial` | propext, Classical.choice, Quot.sound |
| `Verif.C67_write_partial` | propext, Classical.choice, Quot.sound |
| `Verif.C67_read_partial` | propext, Classical.choice, Quot.sound |
| `Verif.C67_method_hidden` | propext, Classical.choice, Quot.sound |
| `Verif.C67_unknown_ignored` | propext, Classical.choice, Quot.sound |
| `Verif.C67_device_item` | none |
| `Verif.C67_violated` | propext, Classical.choice, Quot.sound |
| `Verif.C67_block_hidden` | propext, Classical.choice, Quot.sound |
| `Verif.C68_unchanged` | propext, Classical.choice, Quot.sound |
| `Verif.C68_models` | propext, Quot.sound |
| `Verif.C68_device` | propext, Classical.choice, Quot.sound |
| `Verif.C68_misfit` | propext, Classical.choice, Quot.sound |
| `Verif.C69_rtu_read_partial` | propext, Classical.choice, Quot.sound |
| `Verif.C69_rtu_small_partial` | propext, Classical.choice, Quot.sound |
| `Verif.C69_tcp_read_partial` | propext, Classical.choice, Quot.sound |
| `Verif.C69_device_read_partial` | propext, Classical.choice, Quot.sound |
| `Verif.C69_rtu_write_partial` | propext, Classical.choice, Quot.sound |
| `Verif.C69_tcp_write_partial` | propext, Classical.choice, Quot.sound |
| `Verif.C69_rtu_scan_partial` | propext, Classical.choice, Quot.sound |
| `Verif.C69_tcp_scan_partial` | propext, Classical.choice, Quot.sound |
| `Verif.C69_addressable` | propext, Classical.choice, Quot.sound |
| `Verif.C69_timeout` | propext, Classical.choice, Quot.sound |
| `Verif.C69_violated` | propext, Classical.choice, Quot.sound |
| `Verif.C69_struct_error` | propext, Classical.choice, Quot.sound |
| `Verif.C69_type_error` | propext, Classical.choice, Quot.sound |
| `Verif.C69_refused` | propext, Quot.sound |
| `Verif.C70_rtu` | propext, Classical.choice, Quot.sound |
| `Verif.C70_tcp` | propext, Classical.choice, Quot.sound |
| `Verif.C71_found` | propext, Classical.choice, Quot.sound |
| `Verif.C72_apart_partial` | propext, Classical.choice, Quot.sound |
| `Verif.C72_zero` | propext |
| `Verif.C72_violated` | propext, Quot.sound |
| `Verif.C73_program` | propext, Classical.choice, Quot.sound |
| `Verif.C73_request` | propext, Classical.choice, Quot.sound |
| `Verif.C73_exception_violated` | propext, Classical.choice, Quot.sound |
| `Verif.C74_copy_partial` | propext, Classical.choice, Quot.sound |
| `Verif.C74_violated` | propext, Classical.choice, Quot.sound |
| `Verif.C75_programs_partial` | propext, Classical.choice, Quot.sound |
| `Verif.C75_unused_partial` | propext, Classical.choice, Quot.sound |
| `Verif.C75_request_partial` | propext, Classical.choice, Quot.sound |
| `Verif.C75_late_violated` | propext, Quot.sound |
| `Verif.C76_grouping` | propext, Quot.sound |
| `Verif.C76_requests` | propext, Classical.choice, Quot.sound |
| `Verif.C76_recording` | propext, Classical.choice, Quot.sound |
| `Verif.C76_rtu` | propext, Classical.choice, Quot.sound |
| `Verif.C76_tcp` | propext, Classical.choice, Quot.sound |
| `Verif.C77_cancel` | propext |
| `Verif.C77_obeyed` | propext |
| `Verif.C78_read` | propext, Classical.choice, Quot.sound |
| `Verif.C78_rtu` | propext, Classical.choice, Quot.sound |
| `Verif.C78_tcp` | propext, Classical.choice, Quot.sound |
| `Verif.C79_set` | propext, Classical.choice, Quot.sound |
| `Verif.C79_set_unscaled` | propext, Classical.choice, Quot.sound |
| `Verif.C79_get` | propext, Classical.choice, Quot.sound |
| `Verif.C80_point_partial` | propext, Classical.choice, Quot.sound |
| `Verif.C80_snapshot_partial` | propext, Classical.choice, Quot.sound |
| `Verif.C80_loaded_partial` | propext, Classical.choice, Quot.sound |
| `Verif.C80_devices` | propext, Classical.choice, Quot.sound |
| `Verif.C80_violated` | propext, Classical.choice, Quot.sound |
| `Verif.C81_alone` | propext, Classical.choice, Quot.sound |
| `Verif.C81_write_partial` | propext, Classical.choice, Quot.sound |
| `Verif.C81_two_partial` | propext, Classical.choice, Quot.sound |
| `Verif.C81_many_partial` | propext, Classical.choice, Quot.sound |
| `Verif.C81_requests` | propext, Classical.choice, Quot.sound |
| `Verif.C81_violated` | propext, Classical.choice, Quot.sound |
| `Verif.C82_program_partial` | propext, Classical.choice, Quot.sound |
| `Verif.C82_rtu_partial` | propext, Classical.choice, Quot.sound |
| `Verif.C82_tcp_partial` | propext, Classical.choice, Quot.sound |
| `Verif.C82_restriction` | propext, Classical.choice, Quot.sound |
| `Verif.C82_violated` | propext, Classical.choice, Quot.sound |
| `Verif.C83_equal_partial` | propext, Classical.choice, Quot.sound |
| `Verif.C83_unimplemented` | propext, Classical.choice, Quot.sound |
| `Verif.C83_leak` | propext, Classical.choice, Quot.sound |
| `Verif.C83_symbols` | propext, Classical.choice, Quot.sound |
| `Verif.C83_violated` | propext, Classical.choice, Quot.sound |
| `Verif.C84_function` | none |
| `Verif.C84_hex` | propext |
| `Verif.C84_load_partial` | propext, Classical.choice, Quot.sound |
| `Verif.C84_regs_add` | propext |
| `Verif.C84_violated` | propext |
| `Verif.C84_violated_left` | propext |
| `Verif.C85_values_partial` | propext, Classical.choice, Quot.sound |
| `Verif.C85_lines` | propext, Classical.choice, Quot.sound |
| `Verif.C85_violated` | propext, Classical.choice, Quot.sound |
| `Verif.C86_calls` | propext, Quot.sound |
| `Verif.C86_tls` | propext, Quot.sound |
| `Verif.C86_programs` | propext, Classical.choice, Quot.sound |
| `Verif.C87_program_partial` | propext, Classical.choice, Quot.sound |
| `Verif.C87_changed` | propext, Classical.choice, Quot.sound |
| `Verif.C87_violated` | propext, Classical.choice, Quot.sound |
| `Verif.C88_type` | propext, Classical.choice, Quot.sound |
| `Verif.C88_symbol` | propext |
| `Verif.C88_map` | propext, Classical.choice, Quot.sound |
| `Verif.C89_report_partial` | propext, Classical.choice, Quot.sound |
| `Verif.C89_not_found` | propext, Classical.choice, Quot.sound |
| `Verif.C89_no_device_partial` | propext, Classical.choice, Quot.sound |
| `Verif.C89_options` | propext, Classical.choice, Quot.sound |
| `Verif.C89_map_error` | propext, Classical.choice, Quot.sound |
| `Verif.C89_read_error` | propext, Classical.choice, Quot.sound |
| `Verif.C89_violated` | propext, Classical.choice, Quot.sound |
| `Verif.C89_document_partial` | propext, Classical.choice, Quot.sound |
| `Verif.C89_bad_document` | propext, Classical.choice, Quot.sound |
| `Verif.C90_registers` | propext, Classical.choice, Quot.sound |
| `Verif.C90_registers_clear` | propext, Classical.choice, Quot.sound |
| `Verif.C90_points_partial` | propext, Classical.choice, Quot.sound |
| `Verif.C90_points_clear` | propext, Classical.choice, Quot.sound |
| `Verif.C90_device_partial` | propext, Classical.choice, Quot.sound |
| `Verif.C90_write` | propext, Classical.choice, Quot.sound |
| `Verif.C90_write_points_partial` | propext, Classical.choice, Quot.sound |
| `Verif.C90_scan_partial` | propext, Classical.choice, Quot.sound |
| `Verif.C90_scan_clear` | propext, Classical.choice, Quot.sound |
| `Verif.C90_violated` | propext, Classical.choice, Quot.sound |
| `Verif.C91_rtu_calls` | propext, Classical.choice, Quot.sound |
| `Verif.C91_rtu_partial` | propext, Classical.choice, Quot.sound |
| `Verif.C91_tcp_calls` | propext, Classical.choice, Quot.sound |
| `Verif.C91_tcp_partial` | propext, Classical.choice, Quot.sound |
| `Verif.C91_rtu_same` | propext, Classical.choice, Quot.sound |
| `Verif.C91_tcp_same` | propext, Classical.choice, Quot.sound |
| `Verif.C91_violated` | propext, Quot.sound |
| `Verif.C92_scan_partial` | propext, Classical.choice, Quot.sound |
| `Verif.C92_document` | propext, Classical.choice, Quot.sound |
| `Verif.C92_found_partial` | propext, Classical.choice, Quot.sound |
| `Verif.C92_check_partial` | propext, Classical.choice, Quot.sound |
| `Verif.C92_violated` | propext, Quot.sound |
| `Verif.C92_scripting_partial` | propext, Classical.choice, Quot.sound |
| `Verif.C93_document_partial` | propext, Classical.choice, Quot.sound |
| `Verif.C93_from_pics_partial` | propext, Classical.choice, Quot.sound |
| `Verif.C93_errors` | propext, Classical.choice, Quot.sound |
| `Verif.C93_violated` | propext, Quot.sound |
| `Verif.C94_u64` | propext, Classical.choice, Quot.sound |
| `Verif.C94_u64_data` | propext, Classical.choice, Quot.sound |
| `Verif.C94_double` | propext, Classical.choice, Quot.sound |
| `Verif.C94_double_data` | propext, Classical.choice, Quot.sound |
| `Verif.C94_int` | propext, Classical.choice, Quot.sound |
| `Verif.C94_refused` | propext, Classical.choice, Quot.sound |
| `Verif.C94_single` | propext, Classical.choice, Quot.sound |
| `Verif.C94_small_int` | propext, Classical.choice, Quot.sound |
| `Verif.C95_points_partial` | propext, Classical.choice, Quot.sound |
| `Verif.C95_rtu_partial` | propext, Classical.choice, Quot.sound |
| `Verif.C95_tcp_partial` | propext, Classical.choice, Quot.sound |
| `Verif.C95_faultySlave` | propext, Classical.choice, Quot.sound |
| `Verif.C95_faultyServer` | propext, Quot.sound |
| `Verif.C95_violated` | propext, Classical.choice, Quot.sound |
| `Verif.C96_waits` | propext, Classical.choice, Quot.sound |
| `Verif.C96_reads` | propext, Classical.choice, Quot.sound |
| `Verif.C96_writes_partial` | propext, Classical.choice, Quot.sound |
| `Verif.C96_violated` | propext, Quot.sound |
| `Verif.C97_registers_partial` | propext, Classical.choice, Quot.sound |
| `Verif.C97_values_partial` | propext, Classical.choice, Quot.sound |
| `Verif.C97_violated` | propext, Classical.choice, Quot.sound |
| `Verif.C98_forgets` | propext, Classical.choice, Quot.sound |
| `Verif.C98_values` | propext, Classical.choice, Quot.sound |
| `Verif.C98_programs` | propext, Classical.choice, Quot.sound |
| `Verif.C98_loaded` | propext, Quot.sound |
| `Verif.C99_request` | propext, Classical.choice, Quot.sound |
| `Verif.C99_program` | propext, Classical.choice, Quot.sound |
| `Verif.C99_reload_partial` | propext, Classical.choice, Quot.sound |
| `Verif.C100_rtu_ends_partial` | propext, Classical.choice, Quot.sound |
| `Verif.C100_tcp_ends_partial` | propext, Classical.choice, Quot.sound |
| `Verif.C100_rtu_errors_partial` | propext, Classical.choice, Quot.sound |
| `Verif.C100_tcp_errors_partial` | propext, Classical.choice, Quot.sound |
| `Verif.C100_rtu_recovers` | propext, Classical.choice, Quot.sound |
| `Verif.C100_tcp_recovers` | propext, Classical.choice, Quot.sound |
| `Verif.C100_tcp_released` | propext, Quot.sound |
| `Verif.C100_unplugged` | propext, Classical.choice, Quot.sound |
| `Verif.C100_violated` | propext, Classical.choice, Quot.sound |
| `Verif.C100_stuck` | propext, Quot.sound |
| `Verif.C101_created_partial` | propext, Classical.choice, Quot.sound |
| `Verif.C101_values_partial` | propext, Classical.choice, Quot.sound |
| `Verif.C101_violated` | propext, Classical.choice, Quot.sound |
| `Verif.C101_violated_error` | propext, Classical.choice, Quot.sound |
| `Verif.C102_sent_partial` | propext, Classical.choice, Quot.sound |
| `Verif.C102_once_partial` | propext, Classical.choice, Quot.sound |
| `Verif.C102_violated` | propext, Classical.choice, Quot.sound |
| `Verif.C103_read_partial` | propext, Classical.choice, Quot.sound |
| `Verif.C103_order_partial` | propext, Classical.choice, Quot.sound |
| `Verif.C103_value_partial` | propext, Classical.choice, Quot.sound |
| `Verif.C103_devices` | propext, Classical.choice, Quot.sound |
| `Verif.C103_violated` | propext, Classical.choice, Quot.sound |
| `Verif.C104_points_partial` | propext, Classical.choice, Quot.sound |
| `Verif.C104_last_partial` | propext, Classical.choice, Quot.sound |
| `Verif.C104_read_partial` | propext, Classical.choice, Quot.sound |
| `Verif.C104_violated` | propext, Classical.choice, Quot.sound |
| `Verif.C105_assign_partial` | propext, Classical.choice, Quot.sound |
| `Verif.C105_registers_partial` | propext, Classical.choice, Quot.sound |
| `Verif.C105_whole` | propext, Classical.choice, Quot.sound |
| `Verif.C105_violated` | propext, Classical.choice, Quot.sound |
| `Verif.C106_scan_same` | propext |
| `Verif.C106_read_same` | propext, Classical.choice, Quot.sound |
| `Verif.C106_no_map` | propext, Classical.choice, Quot.sound |
| `Verif.C106_scan_true` | propext |
| `Verif.C106_read` | propext, Classical.choice, Quot.sound |
| `Verif.C106_read_true` | propext, Classical.choice, Quot.sound |
| `Verif.C106_silent` | propext, Classical.choice, Quot.sound |
| `Verif.C106_refused` | propext, Classical.choice, Quot.sound |
| `Verif.C106_write_same` | propext, Classical.choice, Quot.sound |
| `Verif.C106_write_true` | propext, Classical.choice, Quot.sound |
| `Verif.C106_write_point` | propext, Classical.choice, Quot.sound |
| `Verif.C106_command_same` | propext, Classical.choice, Quot.sound |
| `Verif.C106_command` | propext, Classical.choice, Quot.sound |
| `Verif.C106_command_rtu` | propext, Classical.choice, Quot.sound |
| `Verif.C107_waits` | propext, Classical.choice, Quot.sound |
| `Verif.C107_reads` | propext, Quot.sound |
| `Verif.C107_writes_partial` | propext, Classical.choice, Quot.sound |
| `Verif.C107_violated` | propext, Quot.sound |
