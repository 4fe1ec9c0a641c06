{
 "claims": [
  {
   "property": "C01",
   "status": "proved",
   "theorems": [
    "Msat.Props.C01_unsigned_decode",
    "Msat.Props.C01_signed_decode",
    "Msat.Props.C01_patterns",
    "Msat.Props.C01_signed_patterns",
    "Msat.Props.C01_float_patterns",
    "Msat.Props.C01_ub_iff",
    "Msat.Props.C01_big_host_needs_check",
    "Msat.Props.C01_stream_big",
    "Msat.Props.C01_stream_little"
   ],
   "note": "all bit patterns, both host byte orders; undefined behaviour exactly when bytes are missing"
  },
  {
   "property": "C02",
   "status": "proved",
   "theorems": [
    "Msat.Props.C02_instant",
    "Msat.Props.C02_monotone",
    "Msat.Props.C02_injective",
    "Msat.Props.C02_overlap",
    "Msat.Props.C02_expanded",
    "Msat.Props.C02_cuc"
   ],
   "note": "day/millisecond to instant; CUC modelled exactly, not with double rounding"
  },
  {
   "property": "C03",
   "status": "partial",
   "theorems": [
    "Msat.Props.C03_violated_terminate",
    "Msat.Props.C03_violated_unknown_record",
    "Msat.Props.C03_violated_out_of_bounds",
    "Msat.Props.C03_violated_null_dereference",
    "Msat.Props.C03_violated_nontermination",
    "Msat.Props.C03_violated_polar",
    "Msat.Props.C03_terminates_partial",
    "Msat.Props.C03_wellformed_partial",
    "Msat.Props.C03_only_framed_accepted_partial",
    "Msat.Props.C03_wrong_length_refused_partial"
   ],
   "note": "false as stated (C03_violated_*): termination for headers whose records have non-zero length and full handling for well-formed headers are proved"
  },
  {
   "property": "C04",
   "status": "proved",
   "theorems": [
    "Msat.Props.C04_records_recovered",
    "Msat.Props.C04_annotation_fields",
    "Msat.Props.C04_geos_projection",
    "Msat.Props.C04_key_groups"
   ],
   "note": "every sequence of in-range records is recovered"
  },
  {
   "property": "C05",
   "status": "partial",
   "theorems": [
    "Msat.Props.C05_exact_structures",
    "Msat.Props.C05_tiling",
    "Msat.Props.C05_inexact_structures_partial",
    "Msat.Props.C05_prologue_partial",
    "Msat.Props.C05_epilogue_partial",
    "Msat.Props.C05_violated_DCRValues",
    "Msat.Props.C05_violated_ResamplingFunction",
    "Msat.Props.C05_violated_CalibrationConstants",
    "Msat.Props.C05_violated_landmark_SpinRate",
    "Msat.Props.C05_violated_key_message",
    "Msat.Props.C05_key_message_partial",
    "Msat.Props.C05_coefficient_present"
   ],
   "note": "8 structures exactly; RadiometricProc, GeometricProc, IMPFConfiguration, NavigExtrResult for all members but 4, which are proved misread"
  },
  {
   "property": "C06",
   "status": "partial",
   "theorems": [
    "Msat.Props.C06_short_name_roundtrip",
    "Msat.Props.C06_short_name_no_directory",
    "Msat.Props.C06_segment_name_roundtrip",
    "Msat.Props.C06_short_names_handled",
    "Msat.Props.C06_short_name_accepts_only",
    "Msat.Props.C06_violated_empty_component",
    "Msat.Props.C06_is_valid",
    "Msat.Props.C06_violated_isValid",
    "Msat.Props.C06_padding",
    "Msat.Props.C06_shown",
    "Msat.Props.C06_complete"
   ],
   "note": "round trips, texts shown and completeness proved; a segment name with an empty component is undefined behaviour (C06_violated_empty_component) and the validity test accepts names the parser rejects (C06_violated_isValid)"
  },
  {
   "property": "C07",
   "status": "partial",
   "theorems": [
    "Msat.Props.C07_prologue",
    "Msat.Props.C07_epilogue",
    "Msat.Props.C07_logue_otherwise_throws",
    "Msat.Props.C07_segments",
    "Msat.Props.C07_disjoint",
    "Msat.Props.C07_segment_product_unique",
    "Msat.Props.C07_violated_long_name"
   ],
   "note": "proved for product and channel names that fit their fields (12 and 9 characters); longer names are truncated (C07_violated_long_name)"
  },
  {
   "property": "C08",
   "status": "proved",
   "theorems": [
    "Msat.Props.C08_cache_invisible",
    "Msat.Props.C08_just_read_is_held",
    "Msat.Props.C08_lines_history_independent"
   ],
   "note": "all histories; also after failed reads"
  },
  {
   "property": "C09",
   "status": "proved",
   "theorems": [
    "Msat.Props.C09_bijection",
    "Msat.Props.C09_line_content",
    "Msat.Props.C09_outside_is_zero"
   ],
   "note": "full-disk and HRV products of any segment count and size"
  },
  {
   "property": "C10",
   "status": "proved",
   "theorems": [
    "Msat.Props.C10_missing_segments",
    "Msat.Props.C10_absent_lines_are_zero",
    "Msat.Props.C10_scan_order_independent"
   ],
   "note": "any non-empty part of the files, in any order"
  },
  {
   "property": "C11",
   "status": "proved",
   "theorems": [
    "Msat.Props.C11_placement",
    "Msat.Props.C11_start_elsewhere"
   ],
   "note": "all coverages whose windows lie inside the grid"
  },
  {
   "property": "C12",
   "status": "proved",
   "theorems": [
    "Msat.Props.C12_linear_row",
    "Msat.Props.C12_not_a_number",
    "Msat.Props.C12_negative",
    "Msat.Props.C12_calibrated_row",
    "Msat.Props.C12_other_columns_fail",
    "Msat.Props.C12_complete_product",
    "Msat.Props.C12_violated_wide_line"
   ],
   "note": "lines that fit; C12_violated_wide_line shows what happens otherwise"
  },
  {
   "property": "C13",
   "status": "proved",
   "theorems": [
    "Msat.Props.C13_from_hrit",
    "Msat.Props.C13_to_hrit",
    "Msat.Props.C13_hrit_wmo_hrit",
    "Msat.Props.C13_wmo_hrit_wmo",
    "Msat.Props.C13_injective"
   ],
   "note": "all identifiers"
  },
  {
   "property": "C14",
   "status": "proved",
   "theorems": [
    "Msat.Props.C14_id_of_name",
    "Msat.Props.C14_name_of_id",
    "Msat.Props.C14_round_trip",
    "Msat.Props.C14_round_trip",
    "Msat.Props.C14_names_distinct",
    "Msat.Props.C14_hrit_satellites_named",
    "Msat.Props.C14_non_spacecraft"
   ],
   "note": "all identifiers and all names"
  },
  {
   "property": "C15",
   "status": "proved",
   "theorems": [
    "Msat.Props.C15_day_number",
    "Msat.Props.C15_range",
    "Msat.Props.C15_consecutive",
    "Msat.Props.C15_increasing"
   ],
   "note": "all dates of the Gregorian calendar"
  },
  {
   "property": "C16",
   "status": "proved",
   "theorems": [
    "Msat.Props.C16_wavelength_of_channel",
    "Msat.Props.C16_channel_of_wavelength",
    "Msat.Props.C16_round_trip",
    "Msat.Props.C16_wave_number_round_trip",
    "Msat.Props.C16_channels_disjoint",
    "Msat.Props.C16_other_wavelengths_throw",
    "Msat.Props.C16_channel_descriptions",
    "Msat.Props.C16_digits_total"
   ],
   "note": "exact rational arithmetic"
  },
  {
   "property": "C17",
   "status": "proved",
   "theorems": [
    "Msat.Props.C17_mutual_inverses",
    "Msat.Props.C17_fails_iff",
    "Msat.Props.C17_singular",
    "Msat.Props.C17_involution"
   ],
   "note": "exact rational arithmetic instead of double"
  },
  {
   "property": "C18",
   "status": "proved",
   "theorems": [
    "Msat.Props.C18_pixel_round_trip",
    "Msat.Props.C18_nearest_pixel",
    "Msat.Props.C18_offsets_recovered",
    "Msat.Props.C18_invertible"
   ],
   "note": "exact rational arithmetic instead of double"
  },
  {
   "property": "C19",
   "status": "partial",
   "theorems": [
    "Msat.Props.C19_window_inside",
    "Msat.Props.C19_pixel_window_partial",
    "Msat.Props.C19_whole_image",
    "Msat.Props.C19_projected_window",
    "Msat.Props.C19_aligned_projected_window",
    "Msat.Props.C19_violated_overflow",
    "Msat.Props.C19_area_encloses_corners"
   ],
   "note": "the window used is always inside; C19_violated_overflow: an offset near the end of the int range is undefined behaviour instead of a rejection"
  },
  {
   "property": "C20",
   "status": "proved",
   "theorems": [
    "Msat.Props.C20_crop_resize",
    "Msat.Props.C20_crop_only",
    "Msat.Props.C20_corners",
    "Msat.Props.C20_bounds",
    "Msat.Props.C20_control_points",
    "Msat.Props.C20_determinant"
   ],
   "note": "exact rational arithmetic instead of double"
  },
  {
   "property": "C21",
   "status": "partial",
   "theorems": [
    "Msat.Props.C21_split",
    "Msat.Props.C21_unique",
    "Msat.Props.C21_split_join",
    "Msat.Props.C21_join_split",
    "Msat.Props.C21_skip_empty_partial",
    "Msat.Props.C21_violated_only_separators",
    "Msat.Props.C21_violated_empty_separator"
   ],
   "note": "every string and non-empty separator; skipping empty parts fails on separators only (C21_violated_only_separators), an empty separator never ends (C21_violated_empty_separator)"
  },
  {
   "property": "C22",
   "status": "proved",
   "theorems": [
    "Msat.Props.C22_round_trip",
    "Msat.Props.C22_url_characters",
    "Msat.Props.C22_injective",
    "Msat.Props.C22_length"
   ],
   "note": "all byte strings"
  },
  {
   "property": "C23",
   "status": "proved",
   "theorems": [
    "Msat.Props.C23_round_trip",
    "Msat.Props.C23_length",
    "Msat.Props.C23_alphabet",
    "Msat.Props.C23_injective"
   ],
   "note": "all byte strings"
  },
  {
   "property": "C24",
   "status": "partial",
   "theorems": [
    "Msat.Props.C24_decode_encode",
    "Msat.Props.C24_round_trip_partial",
    "Msat.Props.C24_violated_control_characters",
    "Msat.Props.C24_quoted",
    "Msat.Props.C24_printable"
   ],
   "note": "strings whose only control characters are newline, tab and NUL; every other control character decodes as NUL (C24_violated_control_characters)"
  },
  {
   "property": "C25",
   "status": "partial",
   "theorems": [
    "Msat.Props.C25_basename",
    "Msat.Props.C25_dirname",
    "Msat.Props.C25_dirname_simple",
    "Msat.Props.C25_dirname_cases",
    "Msat.Props.C25_one_slash",
    "Msat.Props.C25_join_empty",
    "Msat.Props.C25_dirname_basename",
    "Msat.Props.C25_violated_trailing_slash",
    "Msat.Props.C25_normpath_same_place",
    "Msat.Props.C25_normpath_normal",
    "Msat.Props.C25_normpath_of_normal",
    "Msat.Props.C25_normpath_idempotent",
    "Msat.Props.C25_normpath_defined_partial",
    "Msat.Props.C25_violated_leading_dots"
   ],
   "note": "normpath is undefined behaviour on relative paths leading above their start (C25_violated_leading_dots); dirname and basename lose the last component of a path with a slash at the end"
  },
  {
   "property": "C26",
   "status": "proved",
   "theorems": [
    "Msat.Props.C26_lstrip",
    "Msat.Props.C26_rstrip",
    "Msat.Props.C26_strip",
    "Msat.Props.C26_unique",
    "Msat.Props.C26_idempotent",
    "Msat.Props.C26_both_sides"
   ],
   "note": "all byte strings"
  },
  {
   "property": "C27",
   "status": "proved",
   "theorems": [
    "Msat.Props.C27_round_trip",
    "Msat.Props.C27_injective",
    "Msat.Props.C27_trailing_bytes",
    "Msat.Props.C27_line_size"
   ],
   "note": "all well-formed images; also with trailing bytes, and the encoding is injective"
  },
  {
   "property": "C28",
   "status": "proved",
   "theorems": [
    "Msat.Props.C28_any_file_handled",
    "Msat.Props.C28_truncated_rejected"
   ],
   "note": "every byte string"
  },
  {
   "property": "C29",
   "status": "partial",
   "theorems": [
    "Msat.Props.C29_range",
    "Msat.Props.C29_single",
    "Msat.Props.C29_all_lines_partial",
    "Msat.Props.C29_violated_all_lines"
   ],
   "note": "single lines and all ranges proved; asking for all lines loses the last one (C29_violated_all_lines)"
  },
  {
   "property": "C30",
   "status": "partial",
   "theorems": [
    "Msat.Props.C30_unpack_partial",
    "Msat.Props.C30_roundtrip_partial",
    "Msat.Props.C30_room_partial",
    "Msat.Props.C30_violated_odd_length"
   ],
   "note": "lengths that are a multiple of 5 bytes; any other length reads outside the data (C30_violated_odd_length)"
  },
  {
   "property": "C31",
   "status": "partial",
   "theorems": [
    "Msat.Props.C31_header_parts",
    "Msat.Props.C31_trailer_parts",
    "Msat.Props.C31_consecutive",
    "Msat.Props.C31_trailer",
    "Msat.Props.C31_header_partial",
    "Msat.Props.C31_violated_text_header"
   ],
   "note": "refusal is process termination; a text header without NUL terminator is read beyond its end (C31_violated_text_header)"
  },
  {
   "property": "C32",
   "status": "proved",
   "theorems": [
    "Msat.Props.C32_dimensions",
    "Msat.Props.C32_last_write",
    "Msat.Props.C32_refused",
    "Msat.Props.C32_no_format"
   ],
   "note": "all formats and bands, all sequences of writes"
  },
  {
   "property": "C33",
   "status": "partial",
   "theorems": [
    "Msat.Props.C33_first_half_partial",
    "Msat.Props.C33_refused",
    "Msat.Props.C33_violated_second_half"
   ],
   "note": "first halves; the second half of a line is stored two pixels early (C33_violated_second_half)"
  },
  {
   "property": "C34",
   "status": "partial",
   "theorems": [
    "Msat.Props.C34_exact_partial",
    "Msat.Props.C34_zero",
    "Msat.Props.C34_too_large",
    "Msat.Props.C34_too_small",
    "Msat.Props.C34_read_partial",
    "Msat.Props.C34_violated_zero_fraction",
    "Msat.Props.C34_violated_denormal",
    "Msat.Props.C34_violated_long",
    "Msat.Props.C34_beyond",
    "Msat.Props.C34_double_partial",
    "Msat.Props.C34_double_exact_partial",
    "Msat.Props.C34_double_read_partial",
    "Msat.Props.C34_violated_double_unnormalised"
   ],
   "note": "32 and 64 bit numbers in the normal range on machines with a four byte long; zero fractions, denormals, unnormalised doubles and eight byte longs are violations (C34_violated_*)"
  },
  {
   "property": "C35",
   "status": "proved",
   "theorems": [
    "Msat.Props.C35_label",
    "Msat.Props.C35_encryption",
    "Msat.Props.C35_encryption_total",
    "Msat.Props.C35_code",
    "Msat.Props.C35_unique",
    "Msat.Props.C35_images",
    "Msat.Props.C35_georeference",
    "Msat.Props.C35_field_of_view",
    "Msat.Props.C35_centre"
   ],
   "note": "all labels"
  },
  {
   "property": "C36",
   "status": "partial",
   "theorems": [
    "Msat.Props.C36_map_partial",
    "Msat.Props.C36_never_removed",
    "Msat.Props.C36_no_failure",
    "Msat.Props.C36_violated_hash_zero"
   ],
   "note": "all histories over keys with nonzero hash; keys with hash zero (the empty key) are read out of bounds (C36_violated_hash_zero)"
  },
  {
   "property": "C37",
   "status": "partial",
   "theorems": [
    "Msat.Props.C37_case",
    "Msat.Props.C37_set_get",
    "Msat.Props.C37_violated_long_keys",
    "Msat.Props.C37_violated_section_value",
    "Msat.Props.C37_boolean",
    "Msat.Props.C37_sections"
   ],
   "note": "keys of at most 1024 characters; longer keys are cut (C37_violated_long_keys), number accessors crash on section names (C37_violated_section_value)"
  },
  {
   "property": "C38",
   "status": "proved",
   "theorems": [
    "Msat.Props.C38_atomic",
    "Msat.Props.C38_success",
    "Msat.Props.C38_others"
   ],
   "note": "every stopping point and every answer of the system; the process stops, the system does not (no power failure)"
  },
  {
   "property": "C39",
   "status": "proved",
   "theorems": [
    "Msat.Props.C39_write",
    "Msat.Props.C39_write_ends",
    "Msat.Props.C39_read",
    "Msat.Props.C39_read_outcome",
    "Msat.Props.C39_no_retry"
   ],
   "note": "every sequence of partial transfers, interruptions and errors"
  },
  {
   "property": "C40",
   "status": "partial",
   "theorems": [
    "Msat.Props.C40_rmtree_partial",
    "Msat.Props.C40_violated_no_type",
    "Msat.Props.C40_violated_link"
   ],
   "note": "all trees reached without links, if entry types are known or there are no links below; otherwise links are followed (C40_violated_no_type, C40_violated_link)"
  },
  {
   "property": "C41",
   "status": "partial",
   "theorems": [
    "Msat.Props.C41_elapsed_partial",
    "Msat.Props.C41_violated_overflow"
   ],
   "note": "instants at most 292 years apart; beyond that the subtraction overflows (C41_violated_overflow)"
  },
  {
   "property": "C42",
   "status": "partial",
   "theorems": [
    "Msat.Props.C42_poll",
    "Msat.Props.C42_wait",
    "Msat.Props.C42_status",
    "Msat.Props.C42_timed_wait_partial",
    "Msat.Props.C42_timed_wait_duration",
    "Msat.Props.C42_violated_timed_wait",
    "Msat.Props.C42_violated_killed"
   ],
   "note": "every history for poll and wait; the timed wait for children not yet reported (C42_violated_timed_wait otherwise); a killed child is reported to have exited with 0 (C42_violated_killed)"
  },
  {
   "property": "C43",
   "status": "partial",
   "theorems": [
    "Msat.Props.C43_values_partial",
    "Msat.Props.C43_no_duplicates_partial",
    "Msat.Props.C43_violated_without_copy",
    "Msat.Props.C43_violated_copy_after_set"
   ],
   "note": "after copying the environment of the parent; without it all other variables are lost (C43_violated_without_copy), and copying later duplicates (C43_violated_copy_after_set)"
  },
  {
   "property": "C44",
   "status": "partial",
   "theorems": [
    "Msat.Props.C44_netcdf",
    "Msat.Props.C44_netcdf_origin",
    "Msat.Props.C44_grib",
    "Msat.Props.C44_netcdf24_partial",
    "Msat.Props.C44_grib_hrv",
    "Msat.Props.C44_netcdf24_hrv_partial",
    "Msat.Props.C44_grib_start",
    "Msat.Props.C44_violated_satellite",
    "Msat.Props.C44_violated_hrv",
    "Msat.Props.C44_netcdf_size",
    "Msat.Props.C44_violated_scale"
   ],
   "note": "Geotransform proved to be read back for NetCDF at both resolutions, GRIB and NetCDF-24 (Meteosat 8 and 9) at the low resolution; origin for any pixel size (NetCDF) and for the high resolution; other satellites in NetCDF-24, the pixel size of the high resolution in GRIB and truncated factors are proved violations."
  },
  {
   "property": "C45",
   "status": "partial",
   "theorems": [
    "Msat.Props.C45_round_trip_partial",
    "Msat.Props.C45_fields",
    "Msat.Props.C45_refused",
    "Msat.Props.C45_violated_seconds"
   ],
   "note": "Round trip for both editions, except seconds in edition 1, which are proved lost."
  },
  {
   "property": "C46",
   "status": "partial",
   "theorems": [
    "Msat.Props.C46_type_partial",
    "Msat.Props.C46_dataset_partial",
    "Msat.Props.C46_pixels_partial",
    "Msat.Props.C46_violated_nodata",
    "Msat.Props.C46_violated_int32",
    "Msat.Props.C46_violated_refused"
   ],
   "note": "Types, dataset and pixels proved for the types that are kept; the missing value, 32 bit integers and refused types are proved violations."
  },
  {
   "property": "C47",
   "status": "partial",
   "theorems": [
    "Msat.Props.C47_grey",
    "Msat.Props.C47_range",
    "Msat.Props.C47_computed_partial",
    "Msat.Props.C47_given_partial",
    "Msat.Props.C47_ends",
    "Msat.Props.C47_violated_uniform",
    "Msat.Props.C47_violated_negative",
    "Msat.Props.C47_violated_nan",
    "Msat.Props.C47_violated_conversion"
   ],
   "note": "Range, ends and monotonicity proved for a range that is not empty; uniform, negative-range, NaN and conversion cases are proved violations."
  },
  {
   "property": "C48",
   "status": "proved",
   "theorems": [
    "Msat.Props.C48_single",
    "Msat.Props.C48_39",
    "Msat.Props.C48_space",
    "Msat.Props.C48_distance",
    "Msat.Props.C48_perihelion",
    "Msat.Props.C48_channels",
    "Msat.Props.C48_value",
    "Msat.Props.C48_monotone",
    "Msat.Props.C48_39_positive"
   ],
   "note": "Reals in place of floating point numbers."
  },
  {
   "property": "C49",
   "status": "partial",
   "theorems": [
    "Msat.Props.C49_any_order_partial",
    "Msat.Props.C49_mismatch",
    "Msat.Props.C49_mismatch_orders",
    "Msat.Props.C49_starts",
    "Msat.Props.C49_can_start",
    "Msat.Props.C49_violated_stale",
    "Msat.Props.C49_violated_no_projection",
    "Msat.Props.C49_violated_metadata"
   ],
   "note": "Order independence of everything but the metadata; refusal of mismatches and the channels needed are proved in full; stale projection, missing projection and metadata are proved violations."
  },
  {
   "property": "C50",
   "status": "partial",
   "theorems": [
    "Msat.Props.C50_channels",
    "Msat.Props.C50_formats_partial",
    "Msat.Props.C50_violated_subwindow"
   ],
   "note": "channels: all headers; A and B formats exclude each other; is_subwindow is true of every product (C50_violated_subwindow)"
  },
  {
   "property": "C51",
   "status": "partial",
   "theorems": [
    "Msat.Props.C51_header",
    "Msat.Props.C51_image_partial",
    "Msat.Props.C51_formats",
    "Msat.Props.C51_violated_long_line",
    "Msat.Props.C51_violated_size",
    "Msat.Props.C51_violated_reuse",
    "Msat.Props.C51_violated_line_table",
    "Msat.Props.C51_line_table"
   ],
   "note": "headers: all files; images: new objects and sensible dimensions; long lines, large sizes, objects used again and the line table are violations"
  },
  {
   "property": "C52",
   "status": "partial",
   "theorems": [
    "Msat.Props.C52_mappings",
    "Msat.Props.C52_mappings_released",
    "Msat.Props.C52_violated_assign_to_empty",
    "Msat.Props.C52_files_partial",
    "Msat.Props.C52_files_closed_partial",
    "Msat.Props.C52_violated_close_error"
   ],
   "note": "mappings: all histories; descriptors: all histories in which close reports no error (C52_violated_close_error); assignment to an emptied mapping throws (C52_violated_assign_to_empty)"
  },
  {
   "property": "C53",
   "status": "partial",
   "theorems": [
    "Msat.Props.C53_explicit_window_partial",
    "Msat.Props.C53_same_size_partial",
    "Msat.Props.C53_violated_different_sizes"
   ],
   "note": "images of one size, or an explicit window; otherwise false (C53_violated_different_sizes)"
  },
  {
   "property": "C54",
   "status": "proved",
   "theorems": [
    "Msat.Props.C54_range",
    "Msat.Props.C54_ends",
    "Msat.Props.C54_monotone",
    "Msat.Props.C54_flat_source"
   ],
   "note": "exact rational arithmetic"
  },
  {
   "property": "C55",
   "status": "partial",
   "theorems": [
    "Msat.Props.C55_fitting_images_untouched",
    "Msat.Props.C55_scaled_down_to_fit",
    "Msat.Props.C55_violated_elongated_image",
    "Msat.Props.C55_aspect_ratio"
   ],
   "note": "an elongated image can become empty (C55_violated_elongated_image); everything else proved"
  },
  {
   "property": "C56",
   "status": "partial",
   "theorems": [
    "Msat.Props.C56_plain_text",
    "Msat.Props.C56_partial_escape_ignored",
    "Msat.Props.C56_violated_single_percent",
    "Msat.Props.C56_meaning_partial",
    "Msat.Props.C56_violated_sign",
    "Msat.Props.C56_violated_nul"
   ],
   "note": "Proved: no text is undefined, and a text of bytes and complete escapes is decoded to what it means. Violated: a lone percent sign is decoded to a NUL (the size test wraps), a sign or a blank counts as a hexadecimal digit, and an escape without digits is a NUL."
  },
  {
   "property": "C57",
   "status": "proved",
   "theorems": [
    "Msat.Props.C57_prefix_suffix",
    "Msat.Props.C57_case",
    "Msat.Props.C57_only_letters"
   ],
   "note": "all byte strings"
  },
  {
   "property": "C58",
   "status": "partial",
   "theorems": [
    "Msat.Props.C58_violated_brace",
    "Msat.Props.C58_decode_safe_partial",
    "Msat.Props.C58_violated_unpadded",
    "Msat.Props.C58_violated_foreign"
   ],
   "note": "Proved: every text over the alphabet is decoded without undefined behaviour. Violated: the character { reads after the end of the table, a text without its padding is decoded with bytes 0 added, and a byte outside the alphabet counts as the letter A."
  },
  {
   "property": "C59",
   "status": "partial",
   "theorems": [
    "Msat.Props.C59_channel_data_partial",
    "Msat.Props.C59_dump_partial",
    "Msat.Props.C59_violated_last_line",
    "Msat.Props.C59_violated_close"
   ],
   "note": "every channel but that of the last line, whose data is freed while still referenced (C59_violated_last_line), and freed again on closing (C59_violated_close)"
  },
  {
   "property": "C60",
   "status": "proved",
   "theorems": [
    "Msat.Props.C60_packet_header",
    "Msat.Props.C60_line_header"
   ],
   "note": "all values of all members"
  },
  {
   "property": "C61",
   "status": "proved",
   "theorems": [
    "Msat.Props.C61_text_entries"
   ],
   "note": "all texts that fit their fields"
  },
  {
   "property": "C62",
   "status": "partial",
   "theorems": [
    "Msat.Props.C62_read_partial",
    "Msat.Props.C62_no_file",
    "Msat.Props.C62_violated_empty_value",
    "Msat.Props.C62_violated_no_value"
   ],
   "note": "all documents with nonempty values; empty values are misread or lost (C62_violated_*); lines of at most 1022 characters"
  },
  {
   "property": "C63",
   "status": "proved",
   "theorems": [
    "Msat.Props.C63_write",
    "Msat.Props.C63_read",
    "Msat.Props.C63_write_then_read"
   ],
   "note": "every content, name and previous state of the file"
  },
  {
   "property": "C64",
   "status": "proved",
   "theorems": [
    "Msat.Props.C64_pixels",
    "Msat.Props.C64_truncated"
   ],
   "note": "sensible dimensions: at most 5000 pixels in a line, not negative, fewer than 2^31 pixels"
  },
  {
   "property": "C65",
   "status": "proved",
   "theorems": [
    "Msat.Props.C65_datetime",
    "Msat.Props.C65_timestr"
   ],
   "note": ""
  },
  {
   "property": "C66",
   "status": "proved",
   "theorems": [
    "Msat.Props.C66_openmtp",
    "Msat.Props.C66_hri"
   ],
   "note": "float arithmetic is exact in the model"
  },
  {
   "property": "C67",
   "status": "partial",
   "theorems": [
    "Msat.Props.C67_round_trip",
    "Msat.Props.C67_reference_time_partial",
    "Msat.Props.C67_violated_seconds"
   ],
   "note": "Round trip proved in full; the reference time is proved right for every date when the seconds are zero, and wrong by the seconds otherwise."
  },
  {
   "property": "C68",
   "status": "proved",
   "theorems": [
    "Msat.Props.C68_direction",
    "Msat.Props.C68_range",
    "Msat.Props.C68_band"
   ],
   "note": "Reals in place of floating point numbers."
  },
  {
   "property": "C69",
   "status": "partial",
   "theorems": [
    "Msat.Props.C69_zenith",
    "Msat.Props.C69_band_partial",
    "Msat.Props.C69_violated_cut",
    "Msat.Props.C69_violated_longitude"
   ],
   "note": "The formula is proved to be the angle for every visible point; the cut for far points and the fixed longitude are proved violations."
  },
  {
   "property": "C70",
   "status": "partial",
   "theorems": [
    "Msat.Props.C70_blocks_partial",
    "Msat.Props.C70_violated_edge"
   ],
   "note": "Proved when the blocks divide the raster; otherwise proved that the last block fails."
  },
  {
   "property": "C71",
   "status": "partial",
   "theorems": [
    "Msat.Props.C71_increment_factor",
    "Msat.Props.C71_increment_size_partial",
    "Msat.Props.C71_size_bounds",
    "Msat.Props.C71_factor_size_partial",
    "Msat.Props.C71_size_factor_partial",
    "Msat.Props.C71_violated_3608",
    "Msat.Props.C71_violated_overflow",
    "Msat.Props.C71_violated_near"
   ],
   "note": "Increments proved for all but 3608; factors and sizes proved outside a millimetre of the known values; the exceptions are proved violations."
  },
  {
   "property": "C72",
   "status": "partial",
   "theorems": [
    "Msat.Props.C72_child_partial",
    "Msat.Props.C72_unset",
    "Msat.Props.C72_parent",
    "Msat.Props.C72_restored",
    "Msat.Props.C72_pipe_ends",
    "Msat.Props.C72_violated_same_fd",
    "Msat.Props.C72_violated_same_stream",
    "Msat.Props.C72_violated_stderr_to_1",
    "Msat.Props.C72_violated_closed_stdin",
    "Msat.Props.C72_violated_leak"
   ],
   "note": "Proved for all redirections when the standard descriptors of the parent are open and the descriptors to redirect to are different, open and not standard; the parent for all; the other cases are proved violations."
  },
  {
   "property": "C73",
   "status": "partial",
   "theorems": [
    "Msat.Props.C73_images_partial",
    "Msat.Props.C73_violated_truncated",
    "Msat.Props.C73_refused",
    "Msat.Props.C73_violated_sync",
    "Msat.Props.C73_violated_long",
    "Msat.Props.C73_tecnavia_partial",
    "Msat.Props.C73_violated_keys"
   ],
   "note": "Complete files of all the formats, with and without TECNAVIA blocks, and files without synchronisation, on machines with a four byte unsigned long. Proved violations: eight byte long, files that end early are accepted and black, one mark is enough, keys of TECNAVIA files are not read; the second half of full resolution visible lines is two pixels early (C33)."
  },
  {
   "property": "C74",
   "status": "partial",
   "theorems": [
    "Msat.Props.C74_ident_partial",
    "Msat.Props.C74_refused",
    "Msat.Props.C74_kinds",
    "Msat.Props.C74_violated_east",
    "Msat.Props.C74_violated_west",
    "Msat.Props.C74_violated_weekday",
    "Msat.Props.C74_violated_overflow",
    "Msat.Props.C74_violated_day366"
   ],
   "note": "Proved for every day of every year from 1970 to 32767 and clocks less than twelve hours behind and up to twelve hours ahead of UTC. Outside that the date is wrong (C74_violated_east, C74_violated_west); the weekday is always Sunday (C74_violated_weekday); days above 24856 overflow; day 366 of common years is accepted."
  },
  {
   "property": "C75",
   "status": "partial",
   "theorems": [
    "Msat.Props.C75_keys_partial",
    "Msat.Props.C75_violated_station"
   ],
   "note": "Proved for all tables whose station numbers are below 256; from 256 on the station number is wrong (C75_violated_station)."
  },
  {
   "property": "C76",
   "status": "partial",
   "theorems": [
    "Msat.Props.C76_members_partial",
    "Msat.Props.C76_violated_snmxwp",
    "Msat.Props.C76_violated_minus"
   ],
   "note": "Proved for all members but snmxwp_ir, which is read from the bytes of snmxwp_v1 (C76_violated_snmxwp), for text of digits and spaces and where unsigned long has four bytes."
  },
  {
   "property": "C77",
   "status": "partial",
   "theorems": [
    "Msat.Props.C77_temperature_partial",
    "Msat.Props.C77_monotone_partial",
    "Msat.Props.C77_visible",
    "Msat.Props.C77_file_partial",
    "Msat.Props.C77_goes",
    "Msat.Props.C77_gms",
    "Msat.Props.C77_gms_steps",
    "Msat.Props.C77_gms_visible",
    "Msat.Props.C77_violated_gms_percent",
    "Msat.Props.C77_visible_x",
    "Msat.Props.C77_indoex_partial",
    "Msat.Props.C77_defined",
    "Msat.Props.C77_violated_unset",
    "Msat.Props.C77_violated_vapour"
   ],
   "note": "Proved over the reals (rounding of float not modelled) for METEOSAT, GOES, GMS and INDOEX infrared and for visible images. The coefficients of X format water vapour images are never set (C77_violated_unset), GMS visible images are fractions called percentages, GOES and GMS water vapour images are all 1 K."
  },
  {
   "property": "C78",
   "status": "partial",
   "theorems": [
    "Msat.Props.C78_image_partial",
    "Msat.Props.C78_refused",
    "Msat.Props.C78_templates",
    "Msat.Props.C78_wave_number",
    "Msat.Props.C78_missing_value",
    "Msat.Props.C78_violated_zero",
    "Msat.Props.C78_violated_scale",
    "Msat.Props.C78_violated_stale",
    "Msat.Props.C78_violated_trace",
    "Msat.Props.C78_violated_srs",
    "Msat.Props.C78_violated_exception",
    "Msat.Props.C78_violated_bands"
   ],
   "note": "eccodes is modelled from its documentation (keys, values, packing within half a unit as a parameter); size, satellite, channel, missing pixels and values proved under hypotheses that exclude the violations proved beside them (zero values, scale, stale file, srs, exception, bands)."
  },
  {
   "property": "C79",
   "status": "partial",
   "theorems": [
    "Msat.Props.C79_selected_partial",
    "Msat.Props.C79_all_partial",
    "Msat.Props.C79_violated_range",
    "Msat.Props.C79_violated_wrap",
    "Msat.Props.C79_violated_carry"
   ],
   "note": "Proved for images of one size with the bands asked for in range; violated otherwise (number out of range is a null pointer, numbers modulo 2^32, band list of the first image used for the others)."
  },
  {
   "property": "C80",
   "status": "partial",
   "theorems": [
    "Msat.Props.C80_name",
    "Msat.Props.C80_distinct",
    "Msat.Props.C80_characters",
    "Msat.Props.C80_files",
    "Msat.Props.C80_bands_distinct",
    "Msat.Props.C80_no_metadata",
    "Msat.Props.C80_violated_path",
    "Msat.Props.C80_violated_bands"
   ],
   "note": "Name, distinctness and characters proved; violated: metadata with a slash names a file elsewhere, several bands of one image go to the same file."
  },
  {
   "property": "C81",
   "status": "partial",
   "theorems": [
    "Msat.Props.C81_same",
    "Msat.Props.C81_measure_partial",
    "Msat.Props.C81_dark_partial",
    "Msat.Props.C81_failure",
    "Msat.Props.C81_range_partial",
    "Msat.Props.C81_violated_missing",
    "Msat.Props.C81_violated_zero",
    "Msat.Props.C81_violated_stack",
    "Msat.Props.C81_violated_range"
   ],
   "note": "Measures are kept for readable pixels whose count is not the missing value and whose measure is not 0, while the block fits the stack, and the range for non-negative scales.  Violated: missing pixels become measures, zero measures become missing, blocks larger than the stack, minimum and maximum swapped with a negative scale."
  },
  {
   "property": "C82",
   "status": "partial",
   "theorems": [
    "Msat.Props.C82_open",
    "Msat.Props.C82_description",
    "Msat.Props.C82_visible",
    "Msat.Props.C82_thermal",
    "Msat.Props.C82_monotone",
    "Msat.Props.C82_missing",
    "Msat.Props.C82_georeference",
    "Msat.Props.C82_date",
    "Msat.Props.C82_violated_channel",
    "Msat.Props.C82_violated_projection"
   ],
   "note": "Proved for channels 1-12 in GEOS projection, over the reals.  Violated: a channel 0 or above 12 reads outside the calibration table; the longitude is unset for other projections.  The constants of the thermal channels are those of the library, the same for all satellites; 2.2219 for WV 6.2 may be a typing error for 2.219."
  },
  {
   "property": "C83",
   "status": "partial",
   "theorems": [
    "Msat.Props.C83_nothing_lost_partial",
    "Msat.Props.C83_image",
    "Msat.Props.C83_reflectance",
    "Msat.Props.C83_reflectance39",
    "Msat.Props.C83_angles",
    "Msat.Props.C83_sources",
    "Msat.Props.C83_any_angle",
    "Msat.Props.C83_violated_compute",
    "Msat.Props.C83_violated_mismatch"
   ],
   "note": "Products proved for all names and images; nothing lost proved for every failure except the two violated cases: MSAT_COMPUTE=reflectance for IR_039 leaks the image, and so does a mismatch between the channels of IR_039r.  GDAL is not modelled; datasets are numbers."
  },
  {
   "property": "C84",
   "status": "proved",
   "theorems": [
    "Msat.Props.C84_time",
    "Msat.Props.C84_xrit"
   ],
   "note": "From the day and milliseconds of the prologue, through the text of the metadata, to the day and hour that are used."
  },
  {
   "property": "C85",
   "status": "partial",
   "theorems": [
    "Msat.Props.C85_round_trip_partial",
    "Msat.Props.C85_offsets",
    "Msat.Props.C85_violated_satellite",
    "Msat.Props.C85_violated_date",
    "Msat.Props.C85_violated_names",
    "Msat.Props.C85_violated_two",
    "Msat.Props.C85_violated_latlon",
    "Msat.Props.C85_violated_null",
    "Msat.Props.C85_violated_unset"
   ],
   "note": "Proved for geostationary images of Meteosat with satellite, date, distinct allowed names and plain types, with all the bands and their pixels; and for the offsets of old files. Violated for images without satellite (cannot be opened), without date (one is invented), with latitude and longitude (opened as geostationary without geotransform), without spatial reference (null pointer), bands with the same name (null pointer or lost), integer bands without missing value (undefined conversion)."
  },
  {
   "property": "C86",
   "status": "partial",
   "theorems": [
    "Msat.Props.C86_round_trip_partial",
    "Msat.Props.C86_refused",
    "Msat.Props.C86_violated_satellite",
    "Msat.Props.C86_violated_date",
    "Msat.Props.C86_violated_null"
   ],
   "note": "Proved for images of Meteosat 8 and 9 at the low resolution, and that images without satellite, with unreadable dates or of other projections are refused. Violated for other satellites, images without date and without spatial reference; the violations of names and missing values of C85 hold here too."
  },
  {
   "property": "C87",
   "status": "partial",
   "theorems": [
    "Msat.Props.C87_text",
    "Msat.Props.C87_dcp",
    "Msat.Props.C87_image",
    "Msat.Props.C87_uncompressed_partial",
    "Msat.Props.C87_gts_partial",
    "Msat.Props.C87_keys_partial",
    "Msat.Props.C87_foreign_prologue",
    "Msat.Props.C87_epilogue_partial",
    "Msat.Props.C87_no_memory",
    "Msat.Props.C87_violated_short",
    "Msat.Props.C87_violated_unknown",
    "Msat.Props.C87_violated_empty_text",
    "Msat.Props.C87_violated_writes",
    "Msat.Props.C87_violated_no_annotation",
    "Msat.Props.C87_violated_no_structure",
    "Msat.Props.C87_violated_byte_order",
    "Msat.Props.C87_violated_prologue"
   ],
   "note": "text, dcp, compressed images, foreign prologues proved in full; key numbers and keys, uncompressed samples, landmark spin rates are misread, MSG prologues are undefined, errors terminate, GTS and binary files are written to disk (violations proved)"
  },
  {
   "property": "C88",
   "status": "partial",
   "theorems": [
    "Msat.Props.C88_image",
    "Msat.Props.C88_text_partial",
    "Msat.Props.C88_violated_text",
    "Msat.Props.C88_keys_partial",
    "Msat.Props.C88_violated_keys",
    "Msat.Props.C88_violated_foreign_prologue",
    "Msat.Props.C88_violated_uncompressed",
    "Msat.Props.C88_violated_fresh"
   ],
   "note": "compressed images proved; texts and keys only with a NUL; foreign prologues and uncompressed images are undefined (violations proved)"
  },
  {
   "property": "C89",
   "status": "partial",
   "theorems": [
    "Msat.Props.C89_lines",
    "Msat.Props.C89_violated_inherits",
    "Msat.Props.C89_violated_first",
    "Msat.Props.C89_blocks"
   ],
   "note": "Proved for products whose every segment file carries its records: lines (C89_lines) and raster blocks, raw and calibrated, of both resolutions and with missing segments, straight from the bytes of the files (C89_blocks). A file without a segment identification record takes the identity of the previous one (violation proved); the reading of prologue and epilogue before the segments is not part of it."
  },
  {
   "property": "C90",
   "status": "partial",
   "theorems": [
    "Msat.Props.C90_channel_partial",
    "Msat.Props.C90_seviri",
    "Msat.Props.C90_violated_names",
    "Msat.Props.C90_violated_long_variable",
    "Msat.Props.C90_violated_range",
    "Msat.Props.C90_violated_bits"
   ],
   "note": "proved for names of up to 6 characters and keys of up to 31 characters, for all channels of SEVIRI with up to 10 bits without further assumptions; longer names are mixed up, longer variables lose the count, more than 30 bits are undefined (violations proved)"
  },
  {
   "property": "C91",
   "status": "partial",
   "theorems": [
    "Msat.Props.C91_texts",
    "Msat.Props.C91_numbers",
    "Msat.Props.C91_widths",
    "Msat.Props.C91_answers",
    "Msat.Props.C91_channel",
    "Msat.Props.C91_coefficients",
    "Msat.Props.C91_elevation",
    "Msat.Props.C91_print_partial",
    "Msat.Props.C91_unknown_channel",
    "Msat.Props.C91_close",
    "Msat.Props.C91_violated_print",
    "Msat.Props.C91_violated_before_open",
    "Msat.Props.C91_violated_has_channel",
    "Msat.Props.C91_violated_missing",
    "Msat.Props.C91_violated_empty"
   ],
   "note": "all queries proved for every stored directory and history; printing without a channel and setting one before opening are undefined, asking for a channel changes the size, failing to set one mixes two channels (violations proved)"
  },
  {
   "property": "C92",
   "status": "partial",
   "theorems": [
    "Msat.Props.C92_netcdf_partial",
    "Msat.Props.C92_current_directory",
    "Msat.Props.C92_violated_offsets",
    "Msat.Props.C92_violated_size",
    "Msat.Props.C92_violated_date",
    "Msat.Props.C92_violated_status",
    "Msat.Props.C92_violated_isdst",
    "Msat.Props.C92_image",
    "Msat.Props.C92_violated_overlay"
   ],
   "note": "proved for time zones without daylight saving, for files with enough samples and a date; offsets are exchanged, short files and bad dates are undefined, failures end with status 0, daylight saving time is indeterminate, the overlay argument is ignored (violations proved)"
  },
  {
   "property": "C93",
   "status": "partial",
   "theorems": [
    "Msat.Props.C93_accepted_consistent",
    "Msat.Props.C93_copy",
    "Msat.Props.C93_refused_partial",
    "Msat.Props.C93_truncated",
    "Msat.Props.C93_violated_no_records",
    "Msat.Props.C93_violated_cannot_open",
    "Msat.Props.C93_violated_sector_refused",
    "Msat.Props.C93_images_partial",
    "Msat.Props.C93_conversion_ends",
    "Msat.Props.C93_violated_success_reported_as_failure",
    "Msat.Props.C93_violated_failure_reported_as_success",
    "Msat.Props.C93_violated_different_lengths",
    "Msat.Props.C93_sector_partial",
    "Msat.Props.C93_violated_no_sector",
    "Msat.Props.C93_violated_short_sector",
    "Msat.Props.C93_violated_short_line"
   ],
   "note": "copies proved for every accepted file, conversion for channels with lines of one length and of different kinds, sectors for at least 9 lines of at least 802 pixels in the sector, failures unless the header announces zero records; the status of the conversion is inverted, images of lines of different lengths are left incomplete, shorter images are undefined for the sector, its failures terminate, a file that cannot be opened is undefined (violations proved)"
  },
  {
   "property": "C94",
   "status": "partial",
   "theorems": [
    "Msat.Props.C94_image",
    "Msat.Props.C94_lines",
    "Msat.Props.C94_netcdf_window",
    "Msat.Props.C94_netcdf_time_partial",
    "Msat.Props.C94_netcdf_calibration",
    "Msat.Props.C94_violated_start",
    "Msat.Props.C94_violated_area",
    "Msat.Props.C94_violated_name",
    "Msat.Props.C94_violated_sequence",
    "Msat.Props.C94_nothing",
    "Msat.Props.C94_one_prologue",
    "Msat.Props.C94_channel_name",
    "Msat.Props.C94_usage",
    "Msat.Props.C94_violated_unformatted",
    "Msat.Props.C94_found"
   ],
   "note": "Proved for compressed segments on disk with a common geometry: which files are found, the picture with its rows as the lines of the library, window, time, and calibration of the NetCDF file. The time needs that mktime agrees with timezone in that moment. Violations: window coordinates start from 0 and whole images from 1, windows outside the image end the program with std::terminate, the name has no satellite, segment numbers are not checked, unformatted products are said to be dumped and are not. Not modelled: ImageMagick, the NetCDF library, the projection attributes, the reading of the prologue (undefined in the model, C05)."
  },
  {
   "property": "C95",
   "status": "partial",
   "theorems": [
    "Msat.Props.C95_spacecraft",
    "Msat.Props.C95_agrees",
    "Msat.Props.C95_filetype",
    "Msat.Props.C95_compression",
    "Msat.Props.C95_format",
    "Msat.Props.C95_meaning",
    "Msat.Props.C95_quality",
    "Msat.Props.C95_wavelength",
    "Msat.Props.C95_seviri",
    "Msat.Props.C95_channels",
    "Msat.Props.C95_violated_unknown",
    "Msat.Props.C95_violated_validity",
    "Msat.Props.C95_violated_meteosat"
   ],
   "note": "Proved for all numbers: texts are distinct and unknown numbers have a text of their own; names of satellites agree with the library and wavelengths with the channels. Violations: five satellites with a name are unknown to the library, one quality text is wrong, channels of first generation Meteosat satellites have no text."
  },
  {
   "property": "C96",
   "status": "partial",
   "theorems": [
    "Msat.Props.C96_zenith",
    "Msat.Props.C96_horizon",
    "Msat.Props.C96_monotone",
    "Msat.Props.C96_violated_reflectance"
   ],
   "note": "The zenith angle is proved over real numbers from the triangle of the centre of the Earth, the satellite and the point. Rounding is not modelled. The conversion to reflectance is shown never to happen: the test of the channel is always true and the program ends."
  },
  {
   "property": "C97",
   "status": "partial",
   "theorems": [
    "Msat.Props.C97_dump_partial",
    "Msat.Props.C97_violated_uniform",
    "Msat.Props.C97_violated_uncovered",
    "Msat.Props.C97_violated_hrv",
    "Msat.Props.C97_violated_placement",
    "Msat.Props.C97_violated_brightest",
    "Msat.Props.C97_facts",
    "Msat.Props.C97_status"
   ],
   "note": "Proved for every product without uniform segments that covers the whole picture or has a zero sample. Otherwise the program divides by zero or reads outside of its table, which is proved for all such products. Other violations: HRV lines are shown at the left whatever their place, the greatest sample is shown as NUL. Reading of prologue and epilogue is a parameter (C05, C89)."
  },
  {
   "property": "C98",
   "status": "partial",
   "theorems": [
    "Msat.Props.C98_exports_partial",
    "Msat.Props.C98_content",
    "Msat.Props.C98_times",
    "Msat.Props.C98_place",
    "Msat.Props.C98_calibration",
    "Msat.Props.C98_violated_release",
    "Msat.Props.C98_violated_info",
    "Msat.Props.C98_violated_missing",
    "Msat.Props.C98_violated_leftover",
    "Msat.Props.C98_violated_meteosat6",
    "Msat.Props.C98_violated_bright",
    "Msat.Props.C98_violated_projection",
    "Msat.Props.C98_violated_composite",
    "Msat.Props.C98_arguments"
   ],
   "note": "Proved: what is exported and when, name and times, place, calibration of Meteosat 7 as black body temperatures over real numbers. Violations: every run that exports or prints ends in undefined behaviour (image released by the wrong delete); files that cannot be read abort the program, others leave an unfinished file; calibration of Meteosat 6 is 1; pixels of 128 and more become negative; projection and visible B format are described wrongly. The NetCDF library is assumed to store what it is given."
  },
  {
   "property": "C99",
   "status": "partial",
   "theorems": [
    "Msat.Props.C99_exports_partial",
    "Msat.Props.C99_image",
    "Msat.Props.C99_place",
    "Msat.Props.C99_times",
    "Msat.Props.C99_calibration",
    "Msat.Props.C99_violated_long",
    "Msat.Props.C99_violated_summer",
    "Msat.Props.C99_violated_bright",
    "Msat.Props.C99_violated_visible",
    "Msat.Props.C99_violated_truncated",
    "Msat.Props.C99_violated_missing",
    "Msat.Props.C99_violated_leftover",
    "Msat.Props.C99_arguments"
   ],
   "note": "Proved: which files are written, what is in them, place, times, calibration. Violations: undefined on machines with 64-bit unsigned long; with daylight saving all images but the first are named an hour late; pixels of 128 and more become negative; visible lines are shifted; cut files are exported as complete; files that cannot be opened abort; a failed second image leaves the first. The NetCDF library is assumed to store what it is given."
  },
  {
   "property": "C100",
   "status": "partial",
   "theorems": [
    "Msat.Props.C100_reads",
    "Msat.Props.C100_data_partial",
    "Msat.Props.C100_image_partial",
    "Msat.Props.C100_arguments",
    "Msat.Props.C100_violated_header",
    "Msat.Props.C100_violated_close",
    "Msat.Props.C100_violated_last",
    "Msat.Props.C100_violated_unselected",
    "Msat.Props.C100_violated_dump",
    "Msat.Props.C100_violated_truncated",
    "Msat.Props.C100_violated_name",
    "Msat.Props.C100_violated_letters",
    "Msat.Props.C100_violated_number",
    "Msat.Props.C100_violated_text"
   ],
   "note": "Proved: every complete file is read with the sizes and channels of its text header; the data and image of every channel except that of the last line of the file. Violations: the level 1.5 header is always decoded over the end of an array; the last line is freed, so that its channel cannot be exported, nativedump is undefined and closing frees twice; missing channels and cut files abort; the name of the image depends on the format only and the scale is ignored; short or long channel lists and missing numbers are undefined. ImageMagick is assumed to normalise, turn and write what it is given."
  },
  {
   "property": "C101",
   "status": "partial",
   "theorems": [
    "Msat.Props.C101_numbers",
    "Msat.Props.C101_arrays_partial",
    "Msat.Props.C101_texts",
    "Msat.Props.C101_tests",
    "Msat.Props.C101_line_table",
    "Msat.Props.C101_violated_line_table",
    "Msat.Props.C101_violated_histogram",
    "Msat.Props.C101_violated_attitude",
    "Msat.Props.C101_violated_horizon",
    "Msat.Props.C101_violated_shared"
   ],
   "note": "Proved: every number, text and test of the header gives what the file has, with zeros for what a product does not have; so do the arrays except those of the violations; the table of missing lines of the second visible channel. Violations: the histograms only give 20 of their 256 values; the times of the scan lines of the horizon are made of the limits of the horizon; a fourth attitude value comes from the next member; indices of the line tables are not checked; results are in static storage shared by all headers. The positions of the members are those implied by the lengths of the sections and the labels of the program, the format document is not available; the text of operator<< is not modelled."
  },
  {
   "property": "C102",
   "status": "partial",
   "theorems": [
    "Msat.Props.C102_text",
    "Msat.Props.C102_fractions",
    "Msat.Props.C102_order",
    "Msat.Props.C102_order_expanded",
    "Msat.Props.C102_cuc",
    "Msat.Props.C102_generalized_partial",
    "Msat.Props.C102_violated_zone",
    "Msat.Props.C102_violated_end",
    "Msat.Props.C102_violated_unreadable",
    "Msat.Props.C102_violated_char"
   ],
   "note": "Proved: the texts of the three kinds of CDS times are the date, time and fractions, in the order of the times; the texts of CUC times; generalized times where a zero byte follows and local time is UTC. Violations: the Unix time of a generalized time uses the local time zone; without a zero after it the text is read over its end; what is not a time is not reported, and moves the date of the last reading; get_timechar gives the address of a destroyed string."
  },
  {
   "property": "C103",
   "status": "partial",
   "theorems": [
    "Msat.Props.C103_settings",
    "Msat.Props.C103_no_files",
    "Msat.Props.C103_refused",
    "Msat.Props.C103_bare",
    "Msat.Props.C103_help",
    "Msat.Props.C103_letters",
    "Msat.Props.C103_area",
    "Msat.Props.C103_whole",
    "Msat.Props.C103_violated_junk",
    "Msat.Props.C103_violated_overflow",
    "Msat.Props.C103_violated_stretch",
    "Msat.Props.C103_violated_around",
    "Msat.Props.C103_resize",
    "Msat.Props.C103_violated_empty_size",
    "Msat.Props.C103_violated_limit"
   ],
   "note": "Proved: settings, files, refusals, abbreviations, letters, windows, sizes in pixels and in percent, whole images. Violations: text after the fourth number of --area is ignored, its numbers may overflow (undefined), --stretch takes any text as 0, the degrees of --around are used as projected coordinates so that no area is ever found on images with large pixels and a null pointer is used, --resize with an empty size reads outside of the text, a picture option before --conv limits the converted size."
  },
  {
   "property": "C104",
   "status": "partial",
   "theorems": [
    "Msat.Props.C104_one",
    "Msat.Props.C104_questions",
    "Msat.Props.C104_exists",
    "Msat.Props.C104_stat",
    "Msat.Props.C104_values",
    "Msat.Props.C104_defaults",
    "Msat.Props.C104_relative",
    "Msat.Props.C104_readlink",
    "Msat.Props.C104_violated_islnk",
    "Msat.Props.C104_violated_wall",
    "Msat.Props.C104_violated_loop",
    "Msat.Props.C104_unlink_when",
    "Msat.Props.C104_unlink",
    "Msat.Props.C104_unlink_missing",
    "Msat.Props.C104_rename",
    "Msat.Props.C104_rename_missing",
    "Msat.Props.C104_violated_rename_destination",
    "Msat.Props.C104_violated_rename_same",
    "Msat.Props.C104_entries",
    "Msat.Props.C104_violated_leak",
    "Msat.Props.C104_violated_equal",
    "Msat.Props.C104_entry_type_partial",
    "Msat.Props.C104_violated_entry_link",
    "Msat.Props.C104_which",
    "Msat.Props.C104_which_path",
    "Msat.Props.C104_violated_which_not_found",
    "Msat.Props.C104_suffix",
    "Msat.Props.C104_violated_which_directory"
   ],
   "note": "Proved: questions, values, defaults, relative names, links, removing, renaming of everything but directories, iteration, which, with_suffix. Violations: islnk is never true; a way through a file is an exception instead of \"nothing there\" except for exists, which throws for link loops; rename_ifexists is false when the destination directory is missing and true without effect for two names of one file; a failing first readdir leaks the descriptor; iterators are compared by inode only; entries without type are never links; which gives directories and, when nothing is found, the bare name."
  },
  {
   "property": "C105",
   "status": "partial",
   "theorems": [
    "Msat.Props.C105_round_trip_partial",
    "Msat.Props.C105_violated_outside",
    "Msat.Props.C105_violated_overflow",
    "Msat.Props.C105_violated_no_section",
    "Msat.Props.C105_violated_remark",
    "Msat.Props.C105_violated_empty_value",
    "Msat.Props.C105_violated_null",
    "Msat.Props.C105_dump"
   ],
   "note": "Proved: the round trip for every history with at least one section, sections without values and writable names, keys and values (lower case, no line ends, values not empty and without remark marks and quotes, lines up to 1022 characters), for keys whose hash is not 0; the lines of iniparser_dump. Violations: keys outside of sections are lost; a file without sections comes back with other keys; values with ; or # are cut; empty values are lost; a section name of 1024 characters overflows a buffer; a missing value is a null pointer when there is no section."
  },
  {
   "property": "C106",
   "status": "partial",
   "theorems": [
    "Msat.Props.C106_sun",
    "Msat.Props.C106_sun_direction",
    "Msat.Props.C106_day",
    "Msat.Props.C106_satellite_partial",
    "Msat.Props.C106_reflectance_partial",
    "Msat.Props.C106_reflectance39_partial",
    "Msat.Props.C106_pixel_and_place",
    "Msat.Props.C106_nearest",
    "Msat.Props.C106_refused_places",
    "Msat.Props.C106_refused",
    "Msat.Props.C106_violated_null",
    "Msat.Props.C106_copy",
    "Msat.Props.C106_copy_refused",
    "Msat.Props.C106_violated_size"
   ],
   "note": "Proved for all pixels and blocks; for reflectances when the blocks divide the image (see C70_violated_edge), for the zenith angle of the satellite up to 1 radian (see C69). Violations: null pointers for spatial references without geographic coordinate system or transformation are used; copies with a size ignore it."
  },
  {
   "property": "C107",
   "status": "partial",
   "theorems": [
    "Msat.Props.C107_limits_partial",
    "Msat.Props.C107_limits_inside",
    "Msat.Props.C107_violated_hard_limit",
    "Msat.Props.C107_times_partial",
    "Msat.Props.C107_violated_closed",
    "Msat.Props.C107_violated_reused",
    "Msat.Props.C107_tempfile_partial",
    "Msat.Props.C107_tempfile_life",
    "Msat.Props.C107_violated_chdir",
    "Msat.Props.C107_violated_remove",
    "Msat.Props.C107_locks"
   ],
   "note": "Proved for programs that change limits only by these objects, do not close or reuse the number of a file in scope, and do not change directory. Violations: destructors end the process if the hard limit was lowered, the file was closed or the temporary file cannot be removed; the times of a reused number are given to another file; a temporary file with a relative name (the default) stays, and another is removed, after changing directory."
  },
  {
   "property": "C108",
   "status": "partial",
   "theorems": [
    "Msat.Props.C108_complete",
    "Msat.Props.C108_complete_partial",
    "Msat.Props.C108_in_order",
    "Msat.Props.C108_defined",
    "Msat.Props.C108_read_and_printed",
    "Msat.Props.C108_determined",
    "Msat.Props.C108_integers",
    "Msat.Props.C108_times",
    "Msat.Props.C108_names",
    "Msat.Props.C108_labels",
    "Msat.Props.C108_histogram",
    "Msat.Props.C108_histogram_empty",
    "Msat.Props.C108_violated_histogram",
    "Msat.Props.C108_violated_bar",
    "Msat.Props.C108_violated_straylight",
    "Msat.Props.C108_violated_offsets",
    "Msat.Props.C108_violated_timeliness",
    "Msat.Props.C108_violated_title",
    "Msat.Props.C108_violated_prologue",
    "Msat.Props.C108_units",
    "Msat.Props.C108_codes",
    "Msat.Props.C108_coded_members",
    "Msat.Props.C108_optional",
    "Msat.Props.C108_numbers"
   ],
   "note": "Proved: completeness of ten records and of two up to the values named by neverShown, definedness, determination of the texts of values, integers, times and codes, distinct labels, bars, units, names of codes and which members they are of, when optional parts are shown, numbers of repeated parts. Violated: histograms with a greatest count from 1 to 75 divide by zero, bars of up to 151 asterisks, half of the straylight corrections, 30 of 42 detector offsets and the timeliness flag are not shown, a record has the title of another, and printing an xRIT prologue prints a part that was never read. The texts of reals, generalized times and bit fields are those of the C++ library, assumed without blanks, newlines and parentheses (Plain)."
  },
  {
   "property": "C109",
   "status": "partial",
   "theorems": [
    "Msat.Props.C109_not_terminal",
    "Msat.Props.C109_open",
    "Msat.Props.C109_foreground",
    "Msat.Props.C109_background_partial",
    "Msat.Props.C109_violated_background",
    "Msat.Props.C109_violated_background_wrong",
    "Msat.Props.C109_scopes_not_terminal",
    "Msat.Props.C109_scopes",
    "Msat.Props.C109_restored",
    "Msat.Props.C109_scope_colour",
    "Msat.Props.C109_violated_nested",
    "Msat.Props.C109_violated_nothing"
   ],
   "note": "Proved: nothing is added when not writing to a terminal, foregrounds, bright backgrounds, scopes, and the state after all scopes. Violated: backgrounds that are not bright are written as bright foregrounds (codes 90 to 97), the end of an inner scope also ends the colours of the outer one, and asking for no colour writes a reset. The terminal is the SGR part of ECMA-48 (Spec/Terminal.lean)."
  },
  {
   "property": "C110",
   "status": "partial",
   "theorems": [
    "Msat.Props.C110_lines",
    "Msat.Props.C110_amount",
    "Msat.Props.C110_silent",
    "Msat.Props.C110_violated_handler",
    "Msat.Props.C110_total"
   ],
   "note": "Proved: lines, indentation, amounts and silence without a handler. Violated: a handler set while tasks are open counts their ends without their beginnings, so its indentation becomes negative."
  },
  {
   "property": "C111",
   "status": "partial",
   "theorems": [
    "Msat.Props.C111_released",
    "Msat.Props.C111_callers_blocks",
    "Msat.Props.C111_values",
    "Msat.Props.C111_pointers",
    "Msat.Props.C111_violated_own_value"
   ],
   "note": "Proved for all histories that do not look up a key with hash zero (C36) and do not set an entry to its own value by the pointer a lookup returned; that case is proved undefined after every history that gives the entry a value (C111_violated_own_value). Allocation is assumed to succeed. The refinement to the dictionary of C36/C37 gives the values."
  },
  {
   "property": "C112",
   "status": "partial",
   "theorems": [
    "Msat.Props.C112_edition2",
    "Msat.Props.C112_satellite2",
    "Msat.Props.C112_edition1",
    "Msat.Props.C112_values",
    "Msat.Props.C112_longitude",
    "Msat.Props.C112_time",
    "Msat.Props.C112_refused",
    "Msat.Props.C112_file",
    "Msat.Props.C112_violated_first_key",
    "Msat.Props.C112_violated_sample",
    "Msat.Props.C112_violated_unwritten",
    "Msat.Props.C112_violated_short",
    "Msat.Props.C112_violated_satellite"
   ],
   "note": "Proved: everything that messages of both editions say, for libraries whose keys do not disturb one another, and that a refused value leaves the file alone. Violated: when the first of two alternative keys of the position is refused the second one is not tried but behaviour is undefined, a missing sample message is used as a null pointer, a message that cannot be encoded or written leaves the old file, which is returned as the copy, a message cut short by a full disk is returned like a whole one, and every image is said to be scaled radiance of SEVIRI on Meteosat second generation. Numbers are real: rounding of doubles is not modelled."
  },
  {
   "property": "C113",
   "status": "partial",
   "theorems": [
    "Msat.Props.C113_signature",
    "Msat.Props.C113_image_partial",
    "Msat.Props.C113_total_partial",
    "Msat.Props.C113_objects",
    "Msat.Props.C113_objects_released_partial",
    "Msat.Props.C113_released",
    "Msat.Props.C113_pixels_partial",
    "Msat.Props.C113_geotransform_partial",
    "Msat.Props.C113_violated_unset",
    "Msat.Props.C113_violated_exception",
    "Msat.Props.C113_violated_wave_number",
    "Msat.Props.C113_violated_values",
    "Msat.Props.C113_violated_size",
    "Msat.Props.C113_violated_signature",
    "Msat.Props.C113_violated_leak",
    "Msat.Props.C113_violated_moved"
   ],
   "note": "Proved: which files are taken, exactly when an image is given and all that it says, pixels and geotransform, for all answers of the library; ownership over all histories, and release on every path of the opening. Violated: failed look ups print variables with no value, so every message without satelliteNumber is undefined behaviour by the standard (the other theorems take the printing as harmless); unknown wave numbers and values that the library refuses end in exceptions that nobody catches; a wave number of zero and images of 2^31 pixels are undefined; a zero byte before GRIB hides the message; objects asked for a second message lose the first, and moved objects cannot be used again."
  },
  {
   "property": "C114",
   "status": "partial",
   "theorems": [
    "Msat.Props.C114_complete",
    "Msat.Props.C114_titles",
    "Msat.Props.C114_metadata",
    "Msat.Props.C114_violated_geotransform",
    "Msat.Props.C114_violated_digits"
   ],
   "note": "Proved: what is shown determines the image (names, sizes, types, projection, numbers up to their digits, metadata, statistics), one title for each band in order, every item of metadata shown. Violated: an image without geotransform has six numbers shown that were never given a value; numbers are shown with few digits, so different geotransforms look the same."
  },
  {
   "property": "C115",
   "status": "partial",
   "theorems": [
    "Msat.Props.C115_image",
    "Msat.Props.C115_image_order",
    "Msat.Props.C115_projected",
    "Msat.Props.C115_map_partial",
    "Msat.Props.C115_set",
    "Msat.Props.C115_violated_narrow",
    "Msat.Props.C115_violated_overflow",
    "Msat.Props.C115_violated_date_line"
   ],
   "note": "Proved: smallest rectangle with both corners, independent of their order, for image, projected and map boxes; set exactly if not the default. Violated: columns are long but the bounding box has ints, so that a corner out of their range is not in it; a box of 2^31 columns or more is undefined; an area over the date line gets its complement."
  },
  {
   "property": "C116",
   "status": "partial",
   "theorems": [
    "Msat.Props.C116_image",
    "Msat.Props.C116_numbers",
    "Msat.Props.C116_nodata",
    "Msat.Props.C116_geotransform_partial",
    "Msat.Props.C116_image24",
    "Msat.Props.C116_total24_partial",
    "Msat.Props.C116_pixels_partial",
    "Msat.Props.C116_violated_sizes",
    "Msat.Props.C116_violated_long",
    "Msat.Props.C116_violated_projection",
    "Msat.Props.C116_violated_time",
    "Msat.Props.C116_violated_least",
    "Msat.Props.C116_violated_zero"
   ],
   "note": "Proved: which files are opened and what the image says of them, for both formats, numbers and missing values of bands, the geotransform if numbers are modest, no undefined behaviour in NetCDF-24 files with a projection in range, pixels of images that have the size of the first one. Violated: variables of other sizes have pixels that cannot be read; variables of 32-bit integers are read past the end of the buffer; without a variable Projection a null pointer is used; without time the date is the day 0; the least number overflows; a scale factor of zero gives NaN."
  },
  {
   "property": "C117",
   "status": "partial",
   "theorems": [
    "Msat.Props.C117_settings",
    "Msat.Props.C117_obligatory",
    "Msat.Props.C117_help",
    "Msat.Props.C117_violated_status",
    "Msat.Props.C117_violated_words",
    "Msat.Props.C117_violated_window",
    "Msat.Props.C117_violated_again",
    "Msat.Props.C117_image",
    "Msat.Props.C117_netcdf"
   ],
   "note": "Proved: settings, obligatory options, help and version, and that XRIT2Image makes the image of the product asked for. Violated: an option that does not exist ends the programs with status 0, other words are ignored, a window with one number is not refused, and a second window moves the first pixel of an earlier one."
  },
  {
   "property": "C118",
   "status": "partial",
   "theorems": [
    "Msat.Props.C118_setlk",
    "Msat.Props.C118_apart",
    "Msat.Props.C118_together",
    "Msat.Props.C118_unlock",
    "Msat.Props.C118_getlk",
    "Msat.Props.C118_exclusive",
    "Msat.Props.C118_close",
    "Msat.Props.C118_wait",
    "Msat.Props.C118_signal",
    "Msat.Props.C118_interrupted",
    "Msat.Props.C118_violated_reuse",
    "Msat.Props.C118_violated_process"
   ],
   "note": "Proved: setting, unlocking, asking, waiting, signals, closing and mutual exclusion on all schedules. Violated: a request that ofd_getlk has found not to be possible is overwritten and cannot be used to lock, and on systems without locks of open file descriptions the threads of one process are not kept apart."
  },
  {
   "property": "C119",
   "status": "partial",
   "theorems": [
    "Msat.Props.C119_done_partial",
    "Msat.Props.C119_status",
    "Msat.Props.C119_failure",
    "Msat.Props.C119_refused",
    "Msat.Props.C119_convert_refused",
    "Msat.Props.C119_display_refused",
    "Msat.Props.C119_extension",
    "Msat.Props.C119_violated_band",
    "Msat.Props.C119_violated_template",
    "Msat.Props.C119_name"
   ],
   "note": "Proved: everything is done in order, the status, failures, files that cannot be opened, formats, bands that cannot be displayed, names without extension. Violated: a picture of a band that cannot be read and --copymd with a file that cannot be opened use a null pointer."
  },
  {
   "property": "C120",
   "status": "partial",
   "theorems": [
    "Msat.Props.C120_signal",
    "Msat.Props.C120_only_children_partial",
    "Msat.Props.C120_violated_unstarted",
    "Msat.Props.C120_violated_after",
    "Msat.Props.C120_gone",
    "Msat.Props.C120_violated_restart",
    "Msat.Props.C120_text",
    "Msat.Props.C120_text_tells",
    "Msat.Props.C120_handler",
    "Msat.Props.C120_prompt",
    "Msat.Props.C120_violated_race",
    "Msat.Props.C120_violated_ignored",
    "Msat.Props.C120_program",
    "Msat.Props.C120_violated_exec",
    "Msat.Props.C120_violated_no_arguments"
   ],
   "note": "Proved: who gets signals between fork and the report of termination, only children get signals if callers are careful, texts of statuses and that they tell endings apart, the handler of SIGCHLD, the prompt end of a wait for a child that terminates while the program is asleep, the program that is executed. Violated: signals before fork go to the own process group, signals after termination may go to another process, a second fork of an object is reported as terminated, a child that terminates just before the sleep is noticed only after the whole timeout, with SIGCHLD ignored the wait throws, exit code 71 is ambiguous, no arguments are undefined."
  },
  {
   "property": "C121",
   "status": "partial",
   "theorems": [
    "Msat.Props.C121_case",
    "Msat.Props.C121_once",
    "Msat.Props.C121_there",
    "Msat.Props.C121_again",
    "Msat.Props.C121_first",
    "Msat.Props.C121_search",
    "Msat.Props.C121_others",
    "Msat.Props.C121_ours",
    "Msat.Props.C121_netcdf",
    "Msat.Props.C121_netcdf24",
    "Msat.Props.C121_foreign",
    "Msat.Props.C121_image",
    "Msat.Props.C121_image24",
    "Msat.Props.C121_violated_failure",
    "Msat.Props.C121_violated_crash",
    "Msat.Props.C121_violated_after",
    "Msat.Props.C121_violated_null",
    "Msat.Props.C121_violated_version"
   ],
   "note": "Proved for all sequences of calls, lists of drivers and files: names are unique, drivers stay and are found, order with the library preloaded, search, files of others and of meteosatlib. Not so: a failure of the NetCDF driver hides files of others, a file without Projection is undefined behaviour for every program, a plugin loaded late comes after, a null pointer is called without another GDALAllRegister, another version of GDAL silently has no drivers. The list of drivers of GDAL and its search are said in the model."
  },
  {
   "property": "C122",
   "status": "proved",
   "theorems": [
    "Msat.Props.C122_solar",
    "Msat.Props.C122_thermal",
    "Msat.Props.C122_temperature"
   ],
   "note": "For pixel sizes within a millimetre of the standard ones and files whose header and prologue are in the range of the theorems (FilesSay, Full). Prologue and header of the last segment are given as parsed (C04, C05); rounding to float is an arbitrary function that keeps the sign. What GDAL does in RasterIO is said in the model: blocks are read one by one from the top."
  },
  {
   "property": "C123",
   "status": "partial",
   "theorems": [
    "Msat.Props.C123_prologue_partial",
    "Msat.Props.C123_header",
    "Msat.Props.C123_netcdf_partial",
    "Msat.Props.C123_temperature_partial",
    "Msat.Props.C123_violated_whole"
   ],
   "note": "Each member that is used is read from its documented place, the header is that of the last segment, and the conversion to NetCDF is proved from the bytes of both. Reading the prologue as a whole is undefined (63 bytes are copied into a member of 24, C123_violated_whole), so the statements are on the members; numbers of bit patterns and sscanf are arbitrary functions."
  },
  {
   "property": "C124",
   "status": "partial",
   "theorems": [
    "Msat.Props.C124_solar_partial",
    "Msat.Props.C124_temperature_partial",
    "Msat.Props.C124_violated_zero",
    "Msat.Props.C124_violated_blank"
   ],
   "note": "All of it for measures that are not packed to the missing value of the channel, images with at least one measure, a trace file and an output file that can be written (see C78) and pixel sizes within a tenth of a millimetre of the standard ones. A measured radiance 0 becomes missing (C124_violated_zero), and a product without measures is not converted at all (C124_violated_blank). HRV pixels are read with a size that differs by up to 1.1 centimetres (C44)."
  },
  {
   "property": "C125",
   "status": "partial",
   "theorems": [
    "Msat.Props.C125_solar_partial",
    "Msat.Props.C125_thermal_partial",
    "Msat.Props.C125_violated_size"
   ],
   "note": "Equality of the two results, refusals and undefined behaviour included, for pixel sizes within a tenth of a millimetre of the standard ones. Sizes up to a millimetre away are accepted through NetCDF only (C125_violated_size)."
  },
  {
   "property": "C126",
   "status": "partial",
   "theorems": [
    "Msat.Props.C126_solar_partial",
    "Msat.Props.C126_temperature_partial",
    "Msat.Props.C126_violated_whole"
   ],
   "note": "For the members of the prologue that are used; reading the prologue as a whole is undefined (C126_violated_whole, C05). Measures packed to the missing value, images without measures and pixel sizes further than a tenth of a millimetre from the standard ones are left out as in C124."
  },
  {
   "property": "C127",
   "status": "proved",
   "theorems": [
    "Msat.Props.C127_order",
    "Msat.Props.C127_bytes"
   ],
   "note": "Equality of the results of the conversions of C122, C123, C124 and C126, refusals and undefined behaviour included."
  },
  {
   "property": "C128",
   "status": "partial",
   "theorems": [
    "Msat.Props.C128_netcdf",
    "Msat.Props.C128_grib_partial",
    "Msat.Props.C128_violated_blank"
   ],
   "note": "All of it for NetCDF. For GRIB if there is a measure both times and pixel sizes are within a tenth of a millimetre of the standard ones: segments without any measure are not converted (C128_violated_blank)."
  },
  {
   "property": "C129",
   "status": "partial",
   "theorems": [
    "Msat.Props.C129_image_partial",
    "Msat.Props.C129_violated_short",
    "Msat.Props.C129_solar_partial",
    "Msat.Props.C129_temperature_partial",
    "Msat.Props.C129_hrv_partial"
   ],
   "note": "For SEVIRI. All channels; for HRV the size of pixels is the standard one to within 12 mm. Missing: what is missing in C124 for the way through GRIB, and other satellites. A message with another number of values than its grid has is undefined behaviour (C129_violated_short)."
  }
 ]
}