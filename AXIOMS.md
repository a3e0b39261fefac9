# Axioms

Output of `#print axioms` for every theorem in MANIFEST.json, grouped (namespace `Gvas`).

## Classical.choice, Quot.sound, propext

`C01_scalars_roundtrip`, `C01_scalars_little_endian`, `C02_strings_roundtrip`, `C03_too_long_rejected`, `C03_limit_exact`, `C04_null_vs_empty`, `C05_decoded_strings_valid`, `C05_valid_strings_accepted`, `C06_ascii_count_wrong`, `C06_counts_wrong`, `C06_wide_count_partial`, `C06_scalar_body_partial`, `C06_property_count_partial`, `C06_header_count_partial`, `C07_read_bool`, `C07_read_b32`, `C07_bools_roundtrip`, `C08_enums_strict`, `C09_guid_conversions`, `C09_guid_representations_agree`, `C09_is_zero`, `C10_guid_spellings`, `C10_guid_display_roundtrip`, `C10_guid_display_injective`, `C100_writing`, `C100_body_moves`, `C100_exactly`, `C100_dropped`, `C100_representable`, `C100_kept`, `C100_lost`, `C100_entry_lost`, `C101_found`, `C101_exact`, `C101_hash_decides`, `C101_filled`, `C102_value`, `C102_direct`, `C102_property`, `C102_text`, `C102_sorting`, `C102_sorted`, `C102_saves`, `C102_entry_lost`, `C102_save_shrinks`, `C103_value`, `C103_direct`, `C103_property`, `C103_saved`, `C103_text`, `C103_one_entry`, `C103_struct_value`, `C103_words_needed`, `C103_text_words_needed`, `C103_header_words_needed`, `C104_file`, `C104_property`, `C104_styles`, `C104_no_nan`, `C104_one_key`, `C104_number`, `C104_guid`, `C104_declared`, `C104_property_declared`, `C105_embedded`, `C106_contents`, `C106_frame_or_fault`, `C106_accepts_iff`, `C107_elements`, `C107_fields`, `C107_file_elements`, `C107_file_fields`, `C107_through_json`, `C107_fields_through_json`, `C107_relisted_representable`, `C107_relisted_reads_back`, `C108_converted`, `C108_there_and_back`, `C108_same_contents`, `C109_plain_leaves_rest`, `C109_in_a_row`, `C11_parse_can_panic`, `C11_parse_accepts_plus`, `C11_parse_strict_partial`, `C11_parse_exact_partial`, `C110_put_together`, `C110_same_bytes`, `C110_any_order`, `C111_copied`, `C111_no_hints`, `C111_any_versions`, `C111_same_answers_keep`, `C111_versions_needed`, `C111_through_json`, `C112_merged`, `C112_through_json`, `C12_headers_roundtrip`, `C13_accepts_iff`, `C13_rejects`, `C14_accepted_headers_stable`, `C15_properties_roundtrip`, `C16_element`, `C16_array`, `C16_set`, `C16_map`, `C17_files_roundtrip`, `C17_large_files`, `C17_large_example`, `C18_palworld_roundtrip`, `C19_reread_partial`, `C19_default_reread_partial`, `C19_large_reread_partial`, `C19_at_most_doubles`, `C19_huge_not_reread`, `C20_properties_injective`, `C20_contents_injective`, `C20_files_injective`, `C20_large_contents_injective`, `C21_own_output_reproduced`, `C21_large_reproduced`, `C22_canonical_partial`, `C22_second_save_partial`, `C22_large_second_save_partial`, `C22_reproduced_iff_partial`, `C22_palworld_partial`, `C22_not_every_input`, `C23_truncation_detected`, `C23_file_truncation_detected`, `C24_trailing_ignored`, `C24_file_trailing_ignored`, `C25_reading_terminates`, `C25_fuel_irrelevant`, `C25_property_terminates`, `C25_file_terminates`, `C26_reading_can_panic`, `C26_more_panics`, `C26_panics_known_partial`, `C26_file_panics_known_partial`, `C27_missing_hint_is_missing`, `C27_supplied_hint_helps`, `C27_path_text`, `C27_file`, `C28_extra_hints_harmless`, `C28_file_extra_hints_harmless`, `C28_file_outcomes`, `C29_stack_restored`, `C30_paths_differ_partial`, `C30_shared_iff_partial`, `C30_shared_path`, `C31_lengths_enforced_partial`, `C31_byte_length_ignored`, `C31_byte_layout_partial`, `C32_write_width`, `C33_texts_roundtrip`, `C33_exactly`, `C33_what_is_kept`, `C34_write_ok_iff`, `C35_representation`, `C36_representation`, `C37_map_duplicates`, `C37_arguments_duplicates`, `C37_custom_versions_duplicates`, `C38_fields_kept`, `C38_fields_accepted`, `C38_fields_written`, `C39_value_lost`, `C40_unknown_preserved`, `C40_unknown_accepted`, `C41_failed_write_untouched`, `C41_fails_iff`, `C42_palworld_frame`, `C42_default_frame`, `C43_compressed_length_ignored`, `C43_decompressed_length_too_large`, `C43_decompressed_length_cuts`, `C43_twice_ignores_length`, `C44_ok_but_not_delivered`, `C44_delivered_partial`, `C44_ascii_ok_iff_partial`, `C44_delivered_iff_partial`, `C45_feed_iff_partial`, `C48_same_key_iff`, `C48_keys_kept_partial`, `C48_zeros_merge`, `C48_spellings_merge`, `C49_layout`, `C49_bool_layout`, `C50_linear`, `C50_nonempty`, `C50_amplification`, `C51_error_positions_inside`, `C51_error_positions_read`, `C52_property_readable_iff_partial`, `C52_file_readable_iff_partial`, `C52_large_file_readable_iff_partial`, `C52_not_every_value`, `C53_json_roundtrip_partial`, `C53_saves_partial`, `C53_nonfinite_lost`, `C54_debug_agrees_with_release`, `C54_release_accepts`, `C54_profiles_differ`, `C54_files`, `C55_write_ok_iff`, `C55_write_error`, `C55_write_panic`, `C56_json_injective`, `C57_save_through_json`, `C58_json_stable_partial`, `C58_overflow`, `C59_save_is_concatenation`, `C59_edit_is_local`, `C59_edit_reads_back`, `C60_default_is_not_palworld`, `C60_palworld_is_not_default`, `C62_failure_in_frame`, `C62_failure_in_payload`, `C63_enough_room`, `C63_full_reported_partial`, `C63_ok_complete_partial`, `C63_truncated_but_ok`, `C63_lost_save`, `C64_equivalence`, `C64_equivalence_files`, `C64_same_order`, `C64_maps`, `C64_one_more_entry`, `C64_files`, `C65_same_order_partial`, `C65_same_bytes_partial`, `C65_same_contents_iff_partial`, `C65_order_matters`, `C65_zero_sign`, `C66_progress`, `C66_bounded_rounds`, `C66_one_by_one`, `C66_files`, `C67_depth_bounded`, `C67_every_depth`, `C68_edit_is_local`, `C68_file_edit_is_local`, `C68_patch_in_place`, `C68_element_is_local`, `C68_file_element_is_local`, `C68_patch_element`, `C69_accepts_iff`, `C69_property_iff`, `C69_bare_iff`, `C69_unambiguous`, `C69_one_meaning`, `C69_written_saves`, `C70_int_to_f32`, `C70_int_to_f64`, `C70_f64_to_f32`, `C70_f32_to_f64_exact`, `C71_signed`, `C71_bytes`, `C72_recorded_faithfully`, `C72_accepted`, `C72_bound`, `C72_greedy`, `C73_read_with_header`, `C73_read_bare`, `C73_new_none`, `C73_new_base`, `C74_messages`, `C74_message_tells_error`, `C74_texts`, `C75_engine_version_text`, `C75_engine_version_letters`, `C77_accepted`, `C77_written`, `C77_any_nesting`, `C77_fields_written`, `C78_strings_read`, `C78_strings_written`, `C78_one_meaning`, `C79_property_written`, `C79_bare_written`, `C79_contents_written`, `C79_one_form`, `C80_properties`, `C80_files`, `C80_representable`, `C80_interchangeable`, `C81_scalars`, `C81_strings`, `C81_structs`, `C81_array`, `C81_struct_array`, `C81_set`, `C81_map`, `C81_guids`, `C82_numbers`, `C82_guids`, `C82_structs`, `C82_number_texts`, `C82_guid_text`, `C82_struct_texts`, `C83_errors_describe`, `C83_eof_at_end`, `C83_file`, `C83_frame`, `C83_palworld`, `C84_panics_describe`, `C84_file`, `C84_palworld`, `C85_no_lookahead`, `C85_threshold`, `C85_property`, `C85_file`, `C86_decode_iff`, `C86_decode_fails_iff`, `C86_stream_unique`, `C86_stream_exists`, `C86_zlibCodec`, `C86_zlib_frame`, `C86_zlib_twice_frame`, `C86_other_decoder`, `C87_panics_explained_partial`, `C87_no_panic_partial`, `C87_outcomes_partial`, `C87_saved_partial`, `C87_saved_outcome_partial`, `C87_ascii_partial`, `C87_struct_panics`, `C87_version_panics`, `C87_error_first`, `C87_unused_text`, `C87_first_decides`, `C87_half_pair`, `C87_long_set`, `C88_text_accepted`, `C88_text_unambiguous`, `C88_repeated_names`, `C88_text_roundtrip_partial`, `C88_text_iff_partial`, `C88_saves_partial`, `C88_deep_refused`, `C88_save_refused`, `C88_save_changes`, `C88_exact_digits`, `C88_float_changes`, `C89_text_accepted`, `C89_document`, `C89_other_entries`, `C89_no_repeats`, `C89_as_by_value`, `C89_same`, `C89_saved`, `C89_saved_iff`, `C89_saves`, `C89_repeated_refused`, `C89_repeated`, `C89_unknown`, `C89_first_or_last`, `C90_linear`, `C90_length`, `C90_below`, `C90_slow`, `C91_no_recovery`, `C91_save_no_recovery`, `C91_stands`, `C91_wrong_length`, `C91_wrong_index`, `C91_wrong_index_types`, `C91_wrong_end`, `C91_ends`, `C91_unnoticed`, `C92_same_property`, `C92_same_file`, `C92_property`, `C92_file`, `C92_room_reached`, `C92_square_reached`, `C92_slow_saves`, `C93_stream`, `C93_yields`, `C93_stream_yields`, `C93_file`, `C93_read`, `C93_zlibCodec`, `C93_zeros`, `C93_factor_reached`, `C93_bomb`, `C93_file_factor_reached`, `C94_place_in_json`, `C94_place_in_text`, `C94_edit_through_json`, `C94_edit_through_text`, `C94_value_through_json`, `C94_element_through_json`, `C94_part_in_json`, `C94_part_through_json`, `C95_yields`, `C95_contents`, `C95_same_or_refused`, `C95_decompressors_agree`, `C96_squeezed`, `C96_space_means_nothing`, `C96_space_loaded_alike`, `C96_pretty_layout`, `C96_pretty_loaded_alike`, `C96_pretty_iff`, `C97_text_accepted`, `C97_document`, `C97_document_value`, `C97_same`, `C97_space`, `C97_value_roundtrip`, `C97_saved_alike`, `C97_saved_iff`, `C97_file_by_property`, `C97_type_twice`, `C97_repeated`, `C97_alone_only`, `C98_property`, `C98_file`, `C98_read_fits`, `C98_other_versions`, `C99_necessary`, `C99_needed_iff`, `C99_no_needs`, `C99_missing`, `C99_first_missing`, `C99_first_asked`, `C99_file_first_missing`, `C99_rounds`, `C99_one_kind`, `C99_hints_from_file`, `C99_names_free`, `C99_file_necessary`, `C99_file_iff`

## propext

`C05_strings_never_panic`, `C13_never_panics`, `C27_no_hint_fails`, `C35_array_new_keeps`, `C37_unique`, `C46_ignores_others`, `C61_header_alone`, `C64_single_entry`, `C64_sets`, `C64_equal_not_same_key`, `C73_exactly_one`, `C73_lenses`, `C73_struct_lenses`, `C76_table_partial`, `C76_numbers`, `C86_lawful`

## Quot.sound, propext

`C100_reading`, `C101_beyond`, `C105_property`, `C105_header`, `C105_contents`, `C105_file`, `C109_ordinary_takes_all`, `C109_nothing_behind_ordinary`, `C11_parse_total_partial`, `C23_palworld_truncation_detected`, `C24_palworld_trailing_ignored`, `C32_read_width`, `C35_array_new_fails_iff`, `C35_array_new_total`, `C36_map_new_keeps`, `C37_top_duplicates`, `C37_count`, `C39_top_level_kept_partial`, `C42_before_untouched`, `C45_same_order_partial`, `C46_supports_iff`, `C46_antitone`, `C46_gates`, `C47_get_version`, `C51_frame_positions_inside`, `C62_delivery_irrelevant`, `C62_failure_reported`, `C64_structs`, `C71_unsigned`, `C73_struct_values`, `C76_false`, `C88_same_value`, `C93_stated`

## none

`C45_equal_maps_hash_differently`, `C47_distinct`, `C56_infinities_collide`
