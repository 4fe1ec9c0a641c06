# Axioms of each theorem

Output of `#print axioms` for every theorem of MANIFEST.json.

## Quot.sound

- `Msat.Props.C14_name_of_id`
- `Msat.Props.C120_violated_exec`

## none

- `Msat.Props.C01_big_host_needs_check`
- `Msat.Props.C02_overlap`
- `Msat.Props.C14_non_spacecraft`
- `Msat.Props.C16_channels_disjoint`
- `Msat.Props.C35_georeference`
- `Msat.Props.C55_violated_elongated_image`
- `Msat.Props.C72_unset`
- `Msat.Props.C102_violated_char`
- `Msat.Props.C107_violated_closed`
- `Msat.Props.C107_violated_reused`
- `Msat.Props.C120_handler`
- `Msat.Props.C120_violated_race`
- `Msat.Props.C120_violated_ignored`
- `Msat.Props.C120_violated_no_arguments`

## propext

- `Msat.Props.C01_signed_patterns`
- `Msat.Props.C05_violated_key_message`
- `Msat.Props.C11_start_elsewhere`
- `Msat.Props.C12_other_columns_fail`
- `Msat.Props.C13_hrit_wmo_hrit`
- `Msat.Props.C13_wmo_hrit_wmo`
- `Msat.Props.C13_injective`
- `Msat.Props.C16_channel_descriptions`
- `Msat.Props.C25_join_empty`
- `Msat.Props.C31_violated_text_header`
- `Msat.Props.C32_dimensions`
- `Msat.Props.C32_no_format`
- `Msat.Props.C40_violated_no_type`
- `Msat.Props.C40_violated_link`
- `Msat.Props.C43_violated_copy_after_set`
- `Msat.Props.C45_refused`
- `Msat.Props.C62_violated_empty_value`
- `Msat.Props.C62_violated_no_value`
- `Msat.Props.C88_violated_fresh`
- `Msat.Props.C102_violated_unreadable`
- `Msat.Props.C104_violated_leak`
- `Msat.Props.C107_times_partial`
- `Msat.Props.C108_violated_title`
- `Msat.Props.C109_open`
- `Msat.Props.C118_signal`
- `Msat.Props.C118_violated_reuse`
- `Msat.Props.C121_others`

## propext, Quot.sound

- `Msat.Props.C01_float_patterns`
- `Msat.Props.C01_ub_iff`
- `Msat.Props.C05_violated_DCRValues`
- `Msat.Props.C05_violated_ResamplingFunction`
- `Msat.Props.C05_violated_CalibrationConstants`
- `Msat.Props.C05_coefficient_present`
- `Msat.Props.C06_padding`
- `Msat.Props.C06_complete`
- `Msat.Props.C12_violated_wide_line`
- `Msat.Props.C13_from_hrit`
- `Msat.Props.C13_to_hrit`
- `Msat.Props.C14_id_of_name`
- `Msat.Props.C14_round_trip`
- `Msat.Props.C14_round_trip`
- `Msat.Props.C14_names_distinct`
- `Msat.Props.C14_hrit_satellites_named`
- `Msat.Props.C16_digits_total`
- `Msat.Props.C21_split`
- `Msat.Props.C21_unique`
- `Msat.Props.C21_split_join`
- `Msat.Props.C21_join_split`
- `Msat.Props.C21_violated_empty_separator`
- `Msat.Props.C22_url_characters`
- `Msat.Props.C24_decode_encode`
- `Msat.Props.C24_round_trip_partial`
- `Msat.Props.C24_violated_control_characters`
- `Msat.Props.C24_quoted`
- `Msat.Props.C24_printable`
- `Msat.Props.C25_one_slash`
- `Msat.Props.C26_lstrip`
- `Msat.Props.C26_rstrip`
- `Msat.Props.C27_line_size`
- `Msat.Props.C30_violated_odd_length`
- `Msat.Props.C31_consecutive`
- `Msat.Props.C32_last_write`
- `Msat.Props.C34_read_partial`
- `Msat.Props.C34_violated_long`
- `Msat.Props.C34_double_read_partial`
- `Msat.Props.C35_label`
- `Msat.Props.C35_encryption`
- `Msat.Props.C35_encryption_total`
- `Msat.Props.C37_case`
- `Msat.Props.C37_violated_long_keys`
- `Msat.Props.C39_write_ends`
- `Msat.Props.C42_violated_timed_wait`
- `Msat.Props.C42_violated_killed`
- `Msat.Props.C43_values_partial`
- `Msat.Props.C43_no_duplicates_partial`
- `Msat.Props.C43_violated_without_copy`
- `Msat.Props.C45_round_trip_partial`
- `Msat.Props.C45_fields`
- `Msat.Props.C45_violated_seconds`
- `Msat.Props.C46_violated_int32`
- `Msat.Props.C49_mismatch`
- `Msat.Props.C49_mismatch_orders`
- `Msat.Props.C49_starts`
- `Msat.Props.C49_can_start`
- `Msat.Props.C49_violated_stale`
- `Msat.Props.C49_violated_no_projection`
- `Msat.Props.C49_violated_metadata`
- `Msat.Props.C51_header`
- `Msat.Props.C51_violated_long_line`
- `Msat.Props.C51_violated_size`
- `Msat.Props.C51_violated_reuse`
- `Msat.Props.C51_violated_line_table`
- `Msat.Props.C52_mappings`
- `Msat.Props.C52_violated_assign_to_empty`
- `Msat.Props.C52_files_partial`
- `Msat.Props.C52_files_closed_partial`
- `Msat.Props.C52_violated_close_error`
- `Msat.Props.C55_fitting_images_untouched`
- `Msat.Props.C55_aspect_ratio`
- `Msat.Props.C56_violated_single_percent`
- `Msat.Props.C56_violated_sign`
- `Msat.Props.C57_prefix_suffix`
- `Msat.Props.C57_case`
- `Msat.Props.C57_only_letters`
- `Msat.Props.C58_decode_safe_partial`
- `Msat.Props.C58_violated_foreign`
- `Msat.Props.C59_violated_last_line`
- `Msat.Props.C59_violated_close`
- `Msat.Props.C61_text_entries`
- `Msat.Props.C62_no_file`
- `Msat.Props.C63_read`
- `Msat.Props.C64_pixels`
- `Msat.Props.C64_truncated`
- `Msat.Props.C65_datetime`
- `Msat.Props.C65_timestr`
- `Msat.Props.C70_blocks_partial`
- `Msat.Props.C70_violated_edge`
- `Msat.Props.C72_parent`
- `Msat.Props.C72_restored`
- `Msat.Props.C72_violated_same_fd`
- `Msat.Props.C72_violated_closed_stdin`
- `Msat.Props.C72_violated_leak`
- `Msat.Props.C74_violated_overflow`
- `Msat.Props.C75_violated_station`
- `Msat.Props.C79_violated_wrap`
- `Msat.Props.C83_sources`
- `Msat.Props.C95_spacecraft`
- `Msat.Props.C95_agrees`
- `Msat.Props.C95_filetype`
- `Msat.Props.C95_compression`
- `Msat.Props.C95_format`
- `Msat.Props.C95_meaning`
- `Msat.Props.C95_quality`
- `Msat.Props.C95_seviri`
- `Msat.Props.C95_violated_unknown`
- `Msat.Props.C95_violated_validity`
- `Msat.Props.C95_violated_meteosat`
- `Msat.Props.C100_violated_header`
- `Msat.Props.C101_violated_line_table`
- `Msat.Props.C101_violated_histogram`
- `Msat.Props.C102_violated_zone`
- `Msat.Props.C104_violated_loop`
- `Msat.Props.C104_entries`
- `Msat.Props.C104_entry_type_partial`
- `Msat.Props.C104_which_path`
- `Msat.Props.C104_suffix`
- `Msat.Props.C107_limits_partial`
- `Msat.Props.C107_limits_inside`
- `Msat.Props.C107_violated_hard_limit`
- `Msat.Props.C107_locks`
- `Msat.Props.C108_in_order`
- `Msat.Props.C108_histogram`
- `Msat.Props.C108_histogram_empty`
- `Msat.Props.C108_violated_bar`
- `Msat.Props.C108_violated_offsets`
- `Msat.Props.C108_coded_members`
- `Msat.Props.C108_optional`
- `Msat.Props.C109_not_terminal`
- `Msat.Props.C109_foreground`
- `Msat.Props.C109_background_partial`
- `Msat.Props.C109_violated_background`
- `Msat.Props.C109_violated_background_wrong`
- `Msat.Props.C109_scopes_not_terminal`
- `Msat.Props.C109_scopes`
- `Msat.Props.C109_restored`
- `Msat.Props.C109_scope_colour`
- `Msat.Props.C109_violated_nested`
- `Msat.Props.C109_violated_nothing`
- `Msat.Props.C113_pixels_partial`
- `Msat.Props.C113_violated_values`
- `Msat.Props.C113_violated_leak`
- `Msat.Props.C113_violated_moved`
- `Msat.Props.C115_image`
- `Msat.Props.C115_image_order`
- `Msat.Props.C115_violated_narrow`
- `Msat.Props.C115_violated_overflow`
- `Msat.Props.C116_nodata`
- `Msat.Props.C116_pixels_partial`
- `Msat.Props.C116_violated_sizes`
- `Msat.Props.C116_violated_long`
- `Msat.Props.C118_close`
- `Msat.Props.C120_violated_restart`
- `Msat.Props.C120_prompt`
- `Msat.Props.C120_program`
- `Msat.Props.C121_search`
- `Msat.Props.C121_ours`
- `Msat.Props.C123_violated_whole`

## propext, Classical.choice, Quot.sound

- `Msat.Props.C01_unsigned_decode`
- `Msat.Props.C01_signed_decode`
- `Msat.Props.C01_patterns`
- `Msat.Props.C01_stream_big`
- `Msat.Props.C01_stream_little`
- `Msat.Props.C02_instant`
- `Msat.Props.C02_monotone`
- `Msat.Props.C02_injective`
- `Msat.Props.C02_expanded`
- `Msat.Props.C02_cuc`
- `Msat.Props.C03_violated_terminate`
- `Msat.Props.C03_violated_unknown_record`
- `Msat.Props.C03_violated_out_of_bounds`
- `Msat.Props.C03_violated_null_dereference`
- `Msat.Props.C03_violated_nontermination`
- `Msat.Props.C03_violated_polar`
- `Msat.Props.C03_terminates_partial`
- `Msat.Props.C03_wellformed_partial`
- `Msat.Props.C03_only_framed_accepted_partial`
- `Msat.Props.C03_wrong_length_refused_partial`
- `Msat.Props.C04_records_recovered`
- `Msat.Props.C04_annotation_fields`
- `Msat.Props.C04_geos_projection`
- `Msat.Props.C04_key_groups`
- `Msat.Props.C05_exact_structures`
- `Msat.Props.C05_tiling`
- `Msat.Props.C05_inexact_structures_partial`
- `Msat.Props.C05_prologue_partial`
- `Msat.Props.C05_epilogue_partial`
- `Msat.Props.C05_violated_landmark_SpinRate`
- `Msat.Props.C05_key_message_partial`
- `Msat.Props.C06_short_name_roundtrip`
- `Msat.Props.C06_short_name_no_directory`
- `Msat.Props.C06_segment_name_roundtrip`
- `Msat.Props.C06_short_names_handled`
- `Msat.Props.C06_short_name_accepts_only`
- `Msat.Props.C06_violated_empty_component`
- `Msat.Props.C06_is_valid`
- `Msat.Props.C06_violated_isValid`
- `Msat.Props.C06_shown`
- `Msat.Props.C07_prologue`
- `Msat.Props.C07_epilogue`
- `Msat.Props.C07_logue_otherwise_throws`
- `Msat.Props.C07_segments`
- `Msat.Props.C07_disjoint`
- `Msat.Props.C07_segment_product_unique`
- `Msat.Props.C07_violated_long_name`
- `Msat.Props.C08_cache_invisible`
- `Msat.Props.C08_just_read_is_held`
- `Msat.Props.C08_lines_history_independent`
- `Msat.Props.C09_bijection`
- `Msat.Props.C09_line_content`
- `Msat.Props.C09_outside_is_zero`
- `Msat.Props.C10_missing_segments`
- `Msat.Props.C10_absent_lines_are_zero`
- `Msat.Props.C10_scan_order_independent`
- `Msat.Props.C11_placement`
- `Msat.Props.C12_linear_row`
- `Msat.Props.C12_not_a_number`
- `Msat.Props.C12_negative`
- `Msat.Props.C12_calibrated_row`
- `Msat.Props.C12_complete_product`
- `Msat.Props.C15_day_number`
- `Msat.Props.C15_range`
- `Msat.Props.C15_consecutive`
- `Msat.Props.C15_increasing`
- `Msat.Props.C16_wavelength_of_channel`
- `Msat.Props.C16_channel_of_wavelength`
- `Msat.Props.C16_round_trip`
- `Msat.Props.C16_wave_number_round_trip`
- `Msat.Props.C16_other_wavelengths_throw`
- `Msat.Props.C17_mutual_inverses`
- `Msat.Props.C17_fails_iff`
- `Msat.Props.C17_singular`
- `Msat.Props.C17_involution`
- `Msat.Props.C18_pixel_round_trip`
- `Msat.Props.C18_nearest_pixel`
- `Msat.Props.C18_offsets_recovered`
- `Msat.Props.C18_invertible`
- `Msat.Props.C19_window_inside`
- `Msat.Props.C19_pixel_window_partial`
- `Msat.Props.C19_whole_image`
- `Msat.Props.C19_projected_window`
- `Msat.Props.C19_aligned_projected_window`
- `Msat.Props.C19_violated_overflow`
- `Msat.Props.C19_area_encloses_corners`
- `Msat.Props.C20_crop_resize`
- `Msat.Props.C20_crop_only`
- `Msat.Props.C20_corners`
- `Msat.Props.C20_bounds`
- `Msat.Props.C20_control_points`
- `Msat.Props.C20_determinant`
- `Msat.Props.C21_skip_empty_partial`
- `Msat.Props.C21_violated_only_separators`
- `Msat.Props.C22_round_trip`
- `Msat.Props.C22_injective`
- `Msat.Props.C22_length`
- `Msat.Props.C23_round_trip`
- `Msat.Props.C23_length`
- `Msat.Props.C23_alphabet`
- `Msat.Props.C23_injective`
- `Msat.Props.C25_basename`
- `Msat.Props.C25_dirname`
- `Msat.Props.C25_dirname_simple`
- `Msat.Props.C25_dirname_cases`
- `Msat.Props.C25_dirname_basename`
- `Msat.Props.C25_violated_trailing_slash`
- `Msat.Props.C25_normpath_same_place`
- `Msat.Props.C25_normpath_normal`
- `Msat.Props.C25_normpath_of_normal`
- `Msat.Props.C25_normpath_idempotent`
- `Msat.Props.C25_normpath_defined_partial`
- `Msat.Props.C25_violated_leading_dots`
- `Msat.Props.C26_strip`
- `Msat.Props.C26_unique`
- `Msat.Props.C26_idempotent`
- `Msat.Props.C26_both_sides`
- `Msat.Props.C27_round_trip`
- `Msat.Props.C27_injective`
- `Msat.Props.C27_trailing_bytes`
- `Msat.Props.C28_any_file_handled`
- `Msat.Props.C28_truncated_rejected`
- `Msat.Props.C29_range`
- `Msat.Props.C29_single`
- `Msat.Props.C29_all_lines_partial`
- `Msat.Props.C29_violated_all_lines`
- `Msat.Props.C30_unpack_partial`
- `Msat.Props.C30_roundtrip_partial`
- `Msat.Props.C30_room_partial`
- `Msat.Props.C31_header_parts`
- `Msat.Props.C31_trailer_parts`
- `Msat.Props.C31_trailer`
- `Msat.Props.C31_header_partial`
- `Msat.Props.C32_refused`
- `Msat.Props.C33_first_half_partial`
- `Msat.Props.C33_refused`
- `Msat.Props.C33_violated_second_half`
- `Msat.Props.C34_exact_partial`
- `Msat.Props.C34_zero`
- `Msat.Props.C34_too_large`
- `Msat.Props.C34_too_small`
- `Msat.Props.C34_violated_zero_fraction`
- `Msat.Props.C34_violated_denormal`
- `Msat.Props.C34_beyond`
- `Msat.Props.C34_double_partial`
- `Msat.Props.C34_double_exact_partial`
- `Msat.Props.C34_violated_double_unnormalised`
- `Msat.Props.C35_code`
- `Msat.Props.C35_unique`
- `Msat.Props.C35_images`
- `Msat.Props.C35_field_of_view`
- `Msat.Props.C35_centre`
- `Msat.Props.C36_map_partial`
- `Msat.Props.C36_never_removed`
- `Msat.Props.C36_no_failure`
- `Msat.Props.C36_violated_hash_zero`
- `Msat.Props.C37_set_get`
- `Msat.Props.C37_violated_section_value`
- `Msat.Props.C37_boolean`
- `Msat.Props.C37_sections`
- `Msat.Props.C38_atomic`
- `Msat.Props.C38_success`
- `Msat.Props.C38_others`
- `Msat.Props.C39_write`
- `Msat.Props.C39_read`
- `Msat.Props.C39_read_outcome`
- `Msat.Props.C39_no_retry`
- `Msat.Props.C40_rmtree_partial`
- `Msat.Props.C41_elapsed_partial`
- `Msat.Props.C41_violated_overflow`
- `Msat.Props.C42_poll`
- `Msat.Props.C42_wait`
- `Msat.Props.C42_status`
- `Msat.Props.C42_timed_wait_partial`
- `Msat.Props.C42_timed_wait_duration`
- `Msat.Props.C44_netcdf`
- `Msat.Props.C44_netcdf_origin`
- `Msat.Props.C44_grib`
- `Msat.Props.C44_netcdf24_partial`
- `Msat.Props.C44_grib_hrv`
- `Msat.Props.C44_netcdf24_hrv_partial`
- `Msat.Props.C44_grib_start`
- `Msat.Props.C44_violated_satellite`
- `Msat.Props.C44_violated_hrv`
- `Msat.Props.C44_netcdf_size`
- `Msat.Props.C44_violated_scale`
- `Msat.Props.C46_type_partial`
- `Msat.Props.C46_dataset_partial`
- `Msat.Props.C46_pixels_partial`
- `Msat.Props.C46_violated_nodata`
- `Msat.Props.C46_violated_refused`
- `Msat.Props.C47_grey`
- `Msat.Props.C47_range`
- `Msat.Props.C47_computed_partial`
- `Msat.Props.C47_given_partial`
- `Msat.Props.C47_ends`
- `Msat.Props.C47_violated_uniform`
- `Msat.Props.C47_violated_negative`
- `Msat.Props.C47_violated_nan`
- `Msat.Props.C47_violated_conversion`
- `Msat.Props.C48_single`
- `Msat.Props.C48_39`
- `Msat.Props.C48_space`
- `Msat.Props.C48_distance`
- `Msat.Props.C48_perihelion`
- `Msat.Props.C48_channels`
- `Msat.Props.C48_value`
- `Msat.Props.C48_monotone`
- `Msat.Props.C48_39_positive`
- `Msat.Props.C49_any_order_partial`
- `Msat.Props.C50_channels`
- `Msat.Props.C50_formats_partial`
- `Msat.Props.C50_violated_subwindow`
- `Msat.Props.C51_image_partial`
- `Msat.Props.C51_formats`
- `Msat.Props.C51_line_table`
- `Msat.Props.C52_mappings_released`
- `Msat.Props.C53_explicit_window_partial`
- `Msat.Props.C53_same_size_partial`
- `Msat.Props.C53_violated_different_sizes`
- `Msat.Props.C54_range`
- `Msat.Props.C54_ends`
- `Msat.Props.C54_monotone`
- `Msat.Props.C54_flat_source`
- `Msat.Props.C55_scaled_down_to_fit`
- `Msat.Props.C56_plain_text`
- `Msat.Props.C56_partial_escape_ignored`
- `Msat.Props.C56_meaning_partial`
- `Msat.Props.C56_violated_nul`
- `Msat.Props.C58_violated_brace`
- `Msat.Props.C58_violated_unpadded`
- `Msat.Props.C59_channel_data_partial`
- `Msat.Props.C59_dump_partial`
- `Msat.Props.C60_packet_header`
- `Msat.Props.C60_line_header`
- `Msat.Props.C62_read_partial`
- `Msat.Props.C63_write`
- `Msat.Props.C63_write_then_read`
- `Msat.Props.C66_openmtp`
- `Msat.Props.C66_hri`
- `Msat.Props.C67_round_trip`
- `Msat.Props.C67_reference_time_partial`
- `Msat.Props.C67_violated_seconds`
- `Msat.Props.C68_direction`
- `Msat.Props.C68_range`
- `Msat.Props.C68_band`
- `Msat.Props.C69_zenith`
- `Msat.Props.C69_band_partial`
- `Msat.Props.C69_violated_cut`
- `Msat.Props.C69_violated_longitude`
- `Msat.Props.C71_increment_factor`
- `Msat.Props.C71_increment_size_partial`
- `Msat.Props.C71_size_bounds`
- `Msat.Props.C71_factor_size_partial`
- `Msat.Props.C71_size_factor_partial`
- `Msat.Props.C71_violated_3608`
- `Msat.Props.C71_violated_overflow`
- `Msat.Props.C71_violated_near`
- `Msat.Props.C72_child_partial`
- `Msat.Props.C72_pipe_ends`
- `Msat.Props.C72_violated_same_stream`
- `Msat.Props.C72_violated_stderr_to_1`
- `Msat.Props.C73_images_partial`
- `Msat.Props.C73_violated_truncated`
- `Msat.Props.C73_refused`
- `Msat.Props.C73_violated_sync`
- `Msat.Props.C73_violated_long`
- `Msat.Props.C73_tecnavia_partial`
- `Msat.Props.C73_violated_keys`
- `Msat.Props.C74_ident_partial`
- `Msat.Props.C74_refused`
- `Msat.Props.C74_kinds`
- `Msat.Props.C74_violated_east`
- `Msat.Props.C74_violated_west`
- `Msat.Props.C74_violated_weekday`
- `Msat.Props.C74_violated_day366`
- `Msat.Props.C75_keys_partial`
- `Msat.Props.C76_members_partial`
- `Msat.Props.C76_violated_snmxwp`
- `Msat.Props.C76_violated_minus`
- `Msat.Props.C77_temperature_partial`
- `Msat.Props.C77_monotone_partial`
- `Msat.Props.C77_visible`
- `Msat.Props.C77_file_partial`
- `Msat.Props.C77_goes`
- `Msat.Props.C77_gms`
- `Msat.Props.C77_gms_steps`
- `Msat.Props.C77_gms_visible`
- `Msat.Props.C77_violated_gms_percent`
- `Msat.Props.C77_visible_x`
- `Msat.Props.C77_indoex_partial`
- `Msat.Props.C77_defined`
- `Msat.Props.C77_violated_unset`
- `Msat.Props.C77_violated_vapour`
- `Msat.Props.C78_image_partial`
- `Msat.Props.C78_refused`
- `Msat.Props.C78_templates`
- `Msat.Props.C78_wave_number`
- `Msat.Props.C78_missing_value`
- `Msat.Props.C78_violated_zero`
- `Msat.Props.C78_violated_scale`
- `Msat.Props.C78_violated_stale`
- `Msat.Props.C78_violated_trace`
- `Msat.Props.C78_violated_srs`
- `Msat.Props.C78_violated_exception`
- `Msat.Props.C78_violated_bands`
- `Msat.Props.C79_selected_partial`
- `Msat.Props.C79_all_partial`
- `Msat.Props.C79_violated_range`
- `Msat.Props.C79_violated_carry`
- `Msat.Props.C80_name`
- `Msat.Props.C80_distinct`
- `Msat.Props.C80_characters`
- `Msat.Props.C80_files`
- `Msat.Props.C80_bands_distinct`
- `Msat.Props.C80_no_metadata`
- `Msat.Props.C80_violated_path`
- `Msat.Props.C80_violated_bands`
- `Msat.Props.C81_same`
- `Msat.Props.C81_measure_partial`
- `Msat.Props.C81_dark_partial`
- `Msat.Props.C81_failure`
- `Msat.Props.C81_range_partial`
- `Msat.Props.C81_violated_missing`
- `Msat.Props.C81_violated_zero`
- `Msat.Props.C81_violated_stack`
- `Msat.Props.C81_violated_range`
- `Msat.Props.C82_open`
- `Msat.Props.C82_description`
- `Msat.Props.C82_visible`
- `Msat.Props.C82_thermal`
- `Msat.Props.C82_monotone`
- `Msat.Props.C82_missing`
- `Msat.Props.C82_georeference`
- `Msat.Props.C82_date`
- `Msat.Props.C82_violated_channel`
- `Msat.Props.C82_violated_projection`
- `Msat.Props.C83_nothing_lost_partial`
- `Msat.Props.C83_image`
- `Msat.Props.C83_reflectance`
- `Msat.Props.C83_reflectance39`
- `Msat.Props.C83_angles`
- `Msat.Props.C83_any_angle`
- `Msat.Props.C83_violated_compute`
- `Msat.Props.C83_violated_mismatch`
- `Msat.Props.C84_time`
- `Msat.Props.C84_xrit`
- `Msat.Props.C85_round_trip_partial`
- `Msat.Props.C85_offsets`
- `Msat.Props.C85_violated_satellite`
- `Msat.Props.C85_violated_date`
- `Msat.Props.C85_violated_names`
- `Msat.Props.C85_violated_two`
- `Msat.Props.C85_violated_latlon`
- `Msat.Props.C85_violated_null`
- `Msat.Props.C85_violated_unset`
- `Msat.Props.C86_round_trip_partial`
- `Msat.Props.C86_refused`
- `Msat.Props.C86_violated_satellite`
- `Msat.Props.C86_violated_date`
- `Msat.Props.C86_violated_null`
- `Msat.Props.C87_text`
- `Msat.Props.C87_dcp`
- `Msat.Props.C87_image`
- `Msat.Props.C87_uncompressed_partial`
- `Msat.Props.C87_gts_partial`
- `Msat.Props.C87_keys_partial`
- `Msat.Props.C87_foreign_prologue`
- `Msat.Props.C87_epilogue_partial`
- `Msat.Props.C87_no_memory`
- `Msat.Props.C87_violated_short`
- `Msat.Props.C87_violated_unknown`
- `Msat.Props.C87_violated_empty_text`
- `Msat.Props.C87_violated_writes`
- `Msat.Props.C87_violated_no_annotation`
- `Msat.Props.C87_violated_no_structure`
- `Msat.Props.C87_violated_byte_order`
- `Msat.Props.C87_violated_prologue`
- `Msat.Props.C88_image`
- `Msat.Props.C88_text_partial`
- `Msat.Props.C88_violated_text`
- `Msat.Props.C88_keys_partial`
- `Msat.Props.C88_violated_keys`
- `Msat.Props.C88_violated_foreign_prologue`
- `Msat.Props.C88_violated_uncompressed`
- `Msat.Props.C89_lines`
- `Msat.Props.C89_violated_inherits`
- `Msat.Props.C89_violated_first`
- `Msat.Props.C89_blocks`
- `Msat.Props.C90_channel_partial`
- `Msat.Props.C90_seviri`
- `Msat.Props.C90_violated_names`
- `Msat.Props.C90_violated_long_variable`
- `Msat.Props.C90_violated_range`
- `Msat.Props.C90_violated_bits`
- `Msat.Props.C91_texts`
- `Msat.Props.C91_numbers`
- `Msat.Props.C91_widths`
- `Msat.Props.C91_answers`
- `Msat.Props.C91_channel`
- `Msat.Props.C91_coefficients`
- `Msat.Props.C91_elevation`
- `Msat.Props.C91_print_partial`
- `Msat.Props.C91_unknown_channel`
- `Msat.Props.C91_close`
- `Msat.Props.C91_violated_print`
- `Msat.Props.C91_violated_before_open`
- `Msat.Props.C91_violated_has_channel`
- `Msat.Props.C91_violated_missing`
- `Msat.Props.C91_violated_empty`
- `Msat.Props.C92_netcdf_partial`
- `Msat.Props.C92_current_directory`
- `Msat.Props.C92_violated_offsets`
- `Msat.Props.C92_violated_size`
- `Msat.Props.C92_violated_date`
- `Msat.Props.C92_violated_status`
- `Msat.Props.C92_violated_isdst`
- `Msat.Props.C92_image`
- `Msat.Props.C92_violated_overlay`
- `Msat.Props.C93_accepted_consistent`
- `Msat.Props.C93_copy`
- `Msat.Props.C93_refused_partial`
- `Msat.Props.C93_truncated`
- `Msat.Props.C93_violated_no_records`
- `Msat.Props.C93_violated_cannot_open`
- `Msat.Props.C93_violated_sector_refused`
- `Msat.Props.C93_images_partial`
- `Msat.Props.C93_conversion_ends`
- `Msat.Props.C93_violated_success_reported_as_failure`
- `Msat.Props.C93_violated_failure_reported_as_success`
- `Msat.Props.C93_violated_different_lengths`
- `Msat.Props.C93_sector_partial`
- `Msat.Props.C93_violated_no_sector`
- `Msat.Props.C93_violated_short_sector`
- `Msat.Props.C93_violated_short_line`
- `Msat.Props.C94_image`
- `Msat.Props.C94_lines`
- `Msat.Props.C94_netcdf_window`
- `Msat.Props.C94_netcdf_time_partial`
- `Msat.Props.C94_netcdf_calibration`
- `Msat.Props.C94_violated_start`
- `Msat.Props.C94_violated_area`
- `Msat.Props.C94_violated_name`
- `Msat.Props.C94_violated_sequence`
- `Msat.Props.C94_nothing`
- `Msat.Props.C94_one_prologue`
- `Msat.Props.C94_channel_name`
- `Msat.Props.C94_usage`
- `Msat.Props.C94_violated_unformatted`
- `Msat.Props.C94_found`
- `Msat.Props.C95_wavelength`
- `Msat.Props.C95_channels`
- `Msat.Props.C96_zenith`
- `Msat.Props.C96_horizon`
- `Msat.Props.C96_monotone`
- `Msat.Props.C96_violated_reflectance`
- `Msat.Props.C97_dump_partial`
- `Msat.Props.C97_violated_uniform`
- `Msat.Props.C97_violated_uncovered`
- `Msat.Props.C97_violated_hrv`
- `Msat.Props.C97_violated_placement`
- `Msat.Props.C97_violated_brightest`
- `Msat.Props.C97_facts`
- `Msat.Props.C97_status`
- `Msat.Props.C98_exports_partial`
- `Msat.Props.C98_content`
- `Msat.Props.C98_times`
- `Msat.Props.C98_place`
- `Msat.Props.C98_calibration`
- `Msat.Props.C98_violated_release`
- `Msat.Props.C98_violated_info`
- `Msat.Props.C98_violated_missing`
- `Msat.Props.C98_violated_leftover`
- `Msat.Props.C98_violated_meteosat6`
- `Msat.Props.C98_violated_bright`
- `Msat.Props.C98_violated_projection`
- `Msat.Props.C98_violated_composite`
- `Msat.Props.C98_arguments`
- `Msat.Props.C99_exports_partial`
- `Msat.Props.C99_image`
- `Msat.Props.C99_place`
- `Msat.Props.C99_times`
- `Msat.Props.C99_calibration`
- `Msat.Props.C99_violated_long`
- `Msat.Props.C99_violated_summer`
- `Msat.Props.C99_violated_bright`
- `Msat.Props.C99_violated_visible`
- `Msat.Props.C99_violated_truncated`
- `Msat.Props.C99_violated_missing`
- `Msat.Props.C99_violated_leftover`
- `Msat.Props.C99_arguments`
- `Msat.Props.C100_reads`
- `Msat.Props.C100_data_partial`
- `Msat.Props.C100_image_partial`
- `Msat.Props.C100_arguments`
- `Msat.Props.C100_violated_close`
- `Msat.Props.C100_violated_last`
- `Msat.Props.C100_violated_unselected`
- `Msat.Props.C100_violated_dump`
- `Msat.Props.C100_violated_truncated`
- `Msat.Props.C100_violated_name`
- `Msat.Props.C100_violated_letters`
- `Msat.Props.C100_violated_number`
- `Msat.Props.C100_violated_text`
- `Msat.Props.C101_numbers`
- `Msat.Props.C101_arrays_partial`
- `Msat.Props.C101_texts`
- `Msat.Props.C101_tests`
- `Msat.Props.C101_line_table`
- `Msat.Props.C101_violated_attitude`
- `Msat.Props.C101_violated_horizon`
- `Msat.Props.C101_violated_shared`
- `Msat.Props.C102_text`
- `Msat.Props.C102_fractions`
- `Msat.Props.C102_order`
- `Msat.Props.C102_order_expanded`
- `Msat.Props.C102_cuc`
- `Msat.Props.C102_generalized_partial`
- `Msat.Props.C102_violated_end`
- `Msat.Props.C103_settings`
- `Msat.Props.C103_no_files`
- `Msat.Props.C103_refused`
- `Msat.Props.C103_bare`
- `Msat.Props.C103_help`
- `Msat.Props.C103_letters`
- `Msat.Props.C103_area`
- `Msat.Props.C103_whole`
- `Msat.Props.C103_violated_junk`
- `Msat.Props.C103_violated_overflow`
- `Msat.Props.C103_violated_stretch`
- `Msat.Props.C103_violated_around`
- `Msat.Props.C103_resize`
- `Msat.Props.C103_violated_empty_size`
- `Msat.Props.C103_violated_limit`
- `Msat.Props.C104_one`
- `Msat.Props.C104_questions`
- `Msat.Props.C104_exists`
- `Msat.Props.C104_stat`
- `Msat.Props.C104_values`
- `Msat.Props.C104_defaults`
- `Msat.Props.C104_relative`
- `Msat.Props.C104_readlink`
- `Msat.Props.C104_violated_islnk`
- `Msat.Props.C104_violated_wall`
- `Msat.Props.C104_unlink_when`
- `Msat.Props.C104_unlink`
- `Msat.Props.C104_unlink_missing`
- `Msat.Props.C104_rename`
- `Msat.Props.C104_rename_missing`
- `Msat.Props.C104_violated_rename_destination`
- `Msat.Props.C104_violated_rename_same`
- `Msat.Props.C104_violated_equal`
- `Msat.Props.C104_violated_entry_link`
- `Msat.Props.C104_which`
- `Msat.Props.C104_violated_which_not_found`
- `Msat.Props.C104_violated_which_directory`
- `Msat.Props.C105_round_trip_partial`
- `Msat.Props.C105_violated_outside`
- `Msat.Props.C105_violated_overflow`
- `Msat.Props.C105_violated_no_section`
- `Msat.Props.C105_violated_remark`
- `Msat.Props.C105_violated_empty_value`
- `Msat.Props.C105_violated_null`
- `Msat.Props.C105_dump`
- `Msat.Props.C106_sun`
- `Msat.Props.C106_sun_direction`
- `Msat.Props.C106_day`
- `Msat.Props.C106_satellite_partial`
- `Msat.Props.C106_reflectance_partial`
- `Msat.Props.C106_reflectance39_partial`
- `Msat.Props.C106_pixel_and_place`
- `Msat.Props.C106_nearest`
- `Msat.Props.C106_refused_places`
- `Msat.Props.C106_refused`
- `Msat.Props.C106_violated_null`
- `Msat.Props.C106_copy`
- `Msat.Props.C106_copy_refused`
- `Msat.Props.C106_violated_size`
- `Msat.Props.C107_tempfile_partial`
- `Msat.Props.C107_tempfile_life`
- `Msat.Props.C107_violated_chdir`
- `Msat.Props.C107_violated_remove`
- `Msat.Props.C108_complete`
- `Msat.Props.C108_complete_partial`
- `Msat.Props.C108_defined`
- `Msat.Props.C108_read_and_printed`
- `Msat.Props.C108_determined`
- `Msat.Props.C108_integers`
- `Msat.Props.C108_times`
- `Msat.Props.C108_names`
- `Msat.Props.C108_labels`
- `Msat.Props.C108_violated_histogram`
- `Msat.Props.C108_violated_straylight`
- `Msat.Props.C108_violated_timeliness`
- `Msat.Props.C108_violated_prologue`
- `Msat.Props.C108_units`
- `Msat.Props.C108_codes`
- `Msat.Props.C108_numbers`
- `Msat.Props.C110_lines`
- `Msat.Props.C110_amount`
- `Msat.Props.C110_silent`
- `Msat.Props.C110_violated_handler`
- `Msat.Props.C110_total`
- `Msat.Props.C111_released`
- `Msat.Props.C111_callers_blocks`
- `Msat.Props.C111_values`
- `Msat.Props.C111_pointers`
- `Msat.Props.C111_violated_own_value`
- `Msat.Props.C112_edition2`
- `Msat.Props.C112_satellite2`
- `Msat.Props.C112_edition1`
- `Msat.Props.C112_values`
- `Msat.Props.C112_longitude`
- `Msat.Props.C112_time`
- `Msat.Props.C112_refused`
- `Msat.Props.C112_file`
- `Msat.Props.C112_violated_first_key`
- `Msat.Props.C112_violated_sample`
- `Msat.Props.C112_violated_unwritten`
- `Msat.Props.C112_violated_short`
- `Msat.Props.C112_violated_satellite`
- `Msat.Props.C113_signature`
- `Msat.Props.C113_image_partial`
- `Msat.Props.C113_total_partial`
- `Msat.Props.C113_objects`
- `Msat.Props.C113_objects_released_partial`
- `Msat.Props.C113_released`
- `Msat.Props.C113_geotransform_partial`
- `Msat.Props.C113_violated_unset`
- `Msat.Props.C113_violated_exception`
- `Msat.Props.C113_violated_wave_number`
- `Msat.Props.C113_violated_size`
- `Msat.Props.C113_violated_signature`
- `Msat.Props.C114_complete`
- `Msat.Props.C114_titles`
- `Msat.Props.C114_metadata`
- `Msat.Props.C114_violated_geotransform`
- `Msat.Props.C114_violated_digits`
- `Msat.Props.C115_projected`
- `Msat.Props.C115_map_partial`
- `Msat.Props.C115_set`
- `Msat.Props.C115_violated_date_line`
- `Msat.Props.C116_image`
- `Msat.Props.C116_numbers`
- `Msat.Props.C116_geotransform_partial`
- `Msat.Props.C116_image24`
- `Msat.Props.C116_total24_partial`
- `Msat.Props.C116_violated_projection`
- `Msat.Props.C116_violated_time`
- `Msat.Props.C116_violated_least`
- `Msat.Props.C116_violated_zero`
- `Msat.Props.C117_settings`
- `Msat.Props.C117_obligatory`
- `Msat.Props.C117_help`
- `Msat.Props.C117_violated_status`
- `Msat.Props.C117_violated_words`
- `Msat.Props.C117_violated_window`
- `Msat.Props.C117_violated_again`
- `Msat.Props.C117_image`
- `Msat.Props.C117_netcdf`
- `Msat.Props.C118_setlk`
- `Msat.Props.C118_apart`
- `Msat.Props.C118_together`
- `Msat.Props.C118_unlock`
- `Msat.Props.C118_getlk`
- `Msat.Props.C118_exclusive`
- `Msat.Props.C118_wait`
- `Msat.Props.C118_interrupted`
- `Msat.Props.C118_violated_process`
- `Msat.Props.C119_done_partial`
- `Msat.Props.C119_status`
- `Msat.Props.C119_failure`
- `Msat.Props.C119_refused`
- `Msat.Props.C119_convert_refused`
- `Msat.Props.C119_display_refused`
- `Msat.Props.C119_extension`
- `Msat.Props.C119_violated_band`
- `Msat.Props.C119_violated_template`
- `Msat.Props.C119_name`
- `Msat.Props.C120_signal`
- `Msat.Props.C120_only_children_partial`
- `Msat.Props.C120_violated_unstarted`
- `Msat.Props.C120_violated_after`
- `Msat.Props.C120_gone`
- `Msat.Props.C120_text`
- `Msat.Props.C120_text_tells`
- `Msat.Props.C121_case`
- `Msat.Props.C121_once`
- `Msat.Props.C121_there`
- `Msat.Props.C121_again`
- `Msat.Props.C121_first`
- `Msat.Props.C121_netcdf`
- `Msat.Props.C121_netcdf24`
- `Msat.Props.C121_foreign`
- `Msat.Props.C121_image`
- `Msat.Props.C121_image24`
- `Msat.Props.C121_violated_failure`
- `Msat.Props.C121_violated_crash`
- `Msat.Props.C121_violated_after`
- `Msat.Props.C121_violated_null`
- `Msat.Props.C121_violated_version`
- `Msat.Props.C122_solar`
- `Msat.Props.C122_thermal`
- `Msat.Props.C122_temperature`
- `Msat.Props.C123_prologue_partial`
- `Msat.Props.C123_header`
- `Msat.Props.C123_netcdf_partial`
- `Msat.Props.C123_temperature_partial`
- `Msat.Props.C124_solar_partial`
- `Msat.Props.C124_temperature_partial`
- `Msat.Props.C124_violated_zero`
- `Msat.Props.C124_violated_blank`
- `Msat.Props.C125_solar_partial`
- `Msat.Props.C125_thermal_partial`
- `Msat.Props.C125_violated_size`
- `Msat.Props.C126_solar_partial`
- `Msat.Props.C126_temperature_partial`
- `Msat.Props.C126_violated_whole`
- `Msat.Props.C127_order`
- `Msat.Props.C127_bytes`
- `Msat.Props.C128_netcdf`
- `Msat.Props.C128_grib_partial`
- `Msat.Props.C128_violated_blank`
- `Msat.Props.C129_image_partial`
- `Msat.Props.C129_violated_short`
- `Msat.Props.C129_solar_partial`
- `Msat.Props.C129_temperature_partial`
- `Msat.Props.C129_hrv_partial`

