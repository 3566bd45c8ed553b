{
 "claims": [
  {
   "property": "C01",
   "status": "proved",
   "theorems": [
    "Pycold.C01_screening"
   ],
   "note": ""
  },
  {
   "property": "C02",
   "status": "proved",
   "theorems": [
    "Pycold.C02_unknown_qa",
    "Pycold.Sccd.C02_sccd_detect",
    "Pycold.Sccd.C02_sccd_update",
    "Pycold.C03_cold_detect"
   ],
   "note": ""
  },
  {
   "property": "C03",
   "status": "proved",
   "theorems": [
    "Pycold.C03_date_order",
    "Pycold.C03_inversion",
    "Pycold.C03_cold_detect",
    "Pycold.C03_obcold_reconstruct",
    "Pycold.Sccd.C03_sccd_unchecked"
   ],
   "note": ""
  },
  {
   "property": "C04",
   "status": "proved",
   "theorems": [
    "Pycold.C04_strictly_increasing",
    "Pycold.C04_membership",
    "Pycold.C04_complete",
    "Pycold.C04_missing_thermal_stored_out_of_range"
   ],
   "note": ""
  },
  {
   "property": "C18",
   "status": "proved",
   "theorems": [
    "Pycold.C18_ordinal",
    "Pycold.C18_refused",
    "Pycold.C18_1973_depends_on_garbage",
    "Pycold.C18_1973_refuted"
   ],
   "note": "year 1973 is accepted but reads an uninitialised accumulator: recorded as a finding"
  },
  {
   "property": "C19",
   "status": "proved",
   "theorems": [
    "Pycold.C19_jday_to_calendar",
    "Pycold.C19_round_trip",
    "Pycold.C19_round_trip_back"
   ],
   "note": ""
  },
  {
   "property": "C20",
   "status": "proved",
   "theorems": [
    "Pycold.C20_yearmonth2doy",
    "Pycold.C20_december"
   ],
   "note": ""
  },
  {
   "property": "C45",
   "status": "proved",
   "theorems": [
    "Pycold.C45_first_degradation",
    "Pycold.C45_single_record_ignored"
   ],
   "note": ""
  },
  {
   "property": "C05",
   "status": "proved",
   "theorems": [
    "Pycold.C05_terminates"
   ],
   "note": ""
  },
  {
   "property": "C06",
   "status": "proved",
   "theorems": [
    "Pycold.C06_no_invalid_access"
   ],
   "note": ""
  },
  {
   "property": "C07",
   "status": "proved",
   "theorems": [
    "Pycold.C07_segments_ordered",
    "Pycold.C07_disjoint"
   ],
   "note": ""
  },
  {
   "property": "C08",
   "status": "proved",
   "theorems": [
    "Pycold.C08_dates_are_observations"
   ],
   "note": ""
  },
  {
   "property": "C09",
   "status": "proved",
   "theorems": [
    "Pycold.C09_category_and_probability",
    "Pycold.C09_last_probability"
   ],
   "note": ""
  },
  {
   "property": "C10",
   "status": "proved",
   "theorems": [
    "Pycold.C10_num_obs",
    "Pycold.C10_first_segment_overcounts"
   ],
   "note": "holds for every segment except the start-of-series segment (category 14), which reports one observation too many: proved both ways"
  },
  {
   "property": "C11",
   "status": "partial",
   "theorems": [
    "Pycold.C11_buffer_partial",
    "Pycold.C11_overrun"
   ],
   "note": "proved under a bound on the span (39*367 days) or on the number of clear observations (<474); C11_overrun refutes the unbounded statement"
  },
  {
   "property": "C21",
   "status": "proved",
   "theorems": [
    "Pycold.C21_change_magnitudes",
    "Pycold.C21_python_sizing",
    "Pycold.C21_late_start_out_of_bounds"
   ],
   "note": "holds when the starting date is not after the first scene; C21_late_start_out_of_bounds shows that condition is needed"
  },
  {
   "property": "C48",
   "status": "proved",
   "theorems": [
    "Pycold.C48_break_test",
    "Pycold.C48_breaks_confirmed",
    "Pycold.C48_monitoring",
    "Pycold.C48_look_back"
   ],
   "note": "Comparisons are assumed to be those of numbers (no NaN)."
  },
  {
   "property": "C12",
   "status": "proved",
   "theorems": [
    "Pycold.C12_model_size",
    "Pycold.C12_model_size_sccd"
   ],
   "note": ""
  },
  {
   "property": "C13",
   "status": "proved",
   "theorems": [
    "Pycold.C13_sorts",
    "Pycold.C13_sorts_list"
   ],
   "note": ""
  },
  {
   "property": "C14",
   "status": "proved",
   "theorems": [
    "Pycold.C14_rows_stay_paired",
    "Pycold.C14_index_sort",
    "Pycold.C14_index_sort_duplicate_keys_diverges"
   ],
   "note": "quick_sort_index needs pairwise distinct keys, which LASSO positions are; on duplicates it recurses for ever (proved)"
  },
  {
   "property": "C15",
   "status": "proved",
   "theorems": [
    "Pycold.C15_lasso_scatter",
    "Pycold.C15_second_solution_scrambled"
   ],
   "note": "for the one solution the code requests; with two solutions the second is scrambled (proved)"
  },
  {
   "property": "C16",
   "status": "proved",
   "theorems": [
    "Pycold.C16_median",
    "Pycold.C16_partial_median"
   ],
   "note": "values are rationals: rounding of the mean of two floats is not modelled"
  },
  {
   "property": "C17",
   "status": "proved",
   "theorems": [
    "Pycold.C17_nearest",
    "Pycold.C17_too_far"
   ],
   "note": ""
  },
  {
   "property": "C47",
   "status": "proved",
   "theorems": [
    "Pycold.C47_date_variogram",
    "Pycold.C47_band_variogram",
    "Pycold.C47_lag_found",
    "Pycold.C47_short_span_never_ends"
   ],
   "note": "option 2 of the routine never ends for a series within 30 days (proved); the API only uses option 1"
  },
  {
   "property": "C34",
   "status": "proved",
   "theorems": [
    "Pycold.C34_read_back",
    "Pycold.C34_bijection"
   ],
   "note": "integers are exact (the float quotients of Python are exact below 2^53)"
  },
  {
   "property": "C35",
   "status": "partial",
   "theorems": [
    "Pycold.C35_assembly_partial",
    "Pycold.C35_assembly_not_square",
    "Pycold.C35_cm_maps_partial",
    "Pycold.C35_cm_maps_tall",
    "Pycold.C35_cm_maps_wide",
    "Pycold.C35_cm_maps_missing_file"
   ],
   "note": "holds for square block grids with all files readable; for every other grid, and for unreadable files, the opposite is proved"
  },
  {
   "property": "C36",
   "status": "partial",
   "theorems": [
    "Pycold.C36_blocks",
    "Pycold.C36_export",
    "Pycold.C36_dates",
    "Pycold.C36_default_rank_misses_last",
    "Pycold.C36_default_rank_repeats"
   ],
   "note": "proved for ranks 1..n_cores; for the default rank 0 the claim is refuted by theorem"
  },
  {
   "property": "C49",
   "status": "proved",
   "theorems": [
    "Pycold.C49_split"
   ],
   "note": ""
  },
  {
   "property": "C37",
   "status": "proved",
   "theorems": [
    "Pycold.C37_finished_is_complete",
    "Pycold.C37_rerun_completes"
   ],
   "note": "covers the per-pixel phase (blocks and their flag files)"
  },
  {
   "property": "C50",
   "status": "partial",
   "theorems": [
    "Pycold.C50_magnitudes_stay_aligned",
    "Pycold.C50_failing_pixel_stops_rank"
   ],
   "note": "alignment of the change magnitudes is proved; for RuntimeError the handler itself raises, so the rank stops: the opposite of the claim is proved"
  },
  {
   "property": "C38",
   "status": "partial",
   "theorems": [
    "Pycold.C38_no_deadlock",
    "Pycold.C38_finished_means_produced",
    "Pycold.C38_fewer_than_16_ranks_hang"
   ],
   "note": "proved for 16 ranks or more; for fewer ranks the opposite is proved"
  },
  {
   "property": "C51",
   "status": "partial",
   "theorems": [
    "Pycold.C51_missing_maps_are_completed_partial",
    "Pycold.C51_torn_map_is_never_repaired",
    "Pycold.C51_map_read_while_written"
   ],
   "note": "the maps are complete at the end of a run that had to write them; that torn maps are kept and read, and that maps are read while written, is proved"
  },
  {
   "property": "C52",
   "status": "partial",
   "theorems": [
    "Pycold.C52_restart_partial",
    "Pycold.C52_restart_can_kill_a_rank"
   ],
   "note": "proved unless classification flags are left over while covers are missing; in that case a rank can die (proved)"
  },
  {
   "property": "C24",
   "status": "proved",
   "theorems": [
    "Pycold.Sccd.C24_terminates",
    "Pycold.Sccd.C24_every_observation"
   ],
   "note": "for conse 7 and 8 the alternative of a read outside the array is part of the statement (C53)"
  },
  {
   "property": "C25",
   "status": "proved",
   "theorems": [
    "Pycold.Sccd.C25_contents",
    "Pycold.Sccd.C25_accepted",
    "Pycold.Sccd.C25_never_void_again",
    "Pycold.Sccd.C25_identify_accepts",
    "Pycold.Sccd.C25_identify_void_raises"
   ],
   "note": "sccd_identify is total for conse up to 6 on packs with data; on a void pack it raises (proved)"
  },
  {
   "property": "C26",
   "status": "partial",
   "theorems": [
    "Pycold.Sccd.C26_stored_tail",
    "Pycold.Sccd.C26_any_batching_partial",
    "Pycold.Sccd.C26_phantom_observations",
    "Pycold.Sccd.C26_default_conse_refuted"
   ],
   "note": "proved for conse = 8, for batches that keep the mode, and assuming the filter is stored without loss of precision; for conse < 8, the default included, the opposite is proved"
  },
  {
   "property": "C27",
   "status": "partial",
   "theorems": [
    "Pycold.Sccd.C27_queue_complete_partial",
    "Pycold.Sccd.C27_newest_queued",
    "Pycold.Sccd.C27_newest_lost"
   ],
   "note": "proved below 240 queued observations; above, that the newest is lost is proved"
  },
  {
   "property": "C28",
   "status": "proved",
   "theorems": [
    "Pycold.Sccd.C28_unchanged",
    "Pycold.Sccd.C28_same_date"
   ],
   "note": ""
  },
  {
   "property": "C29",
   "status": "proved",
   "theorems": [
    "Pycold.Sccd.C29_recovered_iff"
   ],
   "note": ""
  },
  {
   "property": "C30",
   "status": "proved",
   "theorems": [
    "Pycold.Sccd.C30_packed",
    "Pycold.Sccd.C30_conse_refused",
    "Pycold.Sccd.C30_short_span_refused",
    "Pycold.Sccd.C30_update_large_conse_out_of_bounds"
   ],
   "note": "sccd_update does not refuse conse > 8: the consequence is proved"
  },
  {
   "property": "C31",
   "status": "proved",
   "theorems": [
    "Pycold.Sccd.C31_snow"
   ],
   "note": "dates strictly ascending and within 16 bits, at most 32767 observations"
  },
  {
   "property": "C41",
   "status": "partial",
   "theorems": [
    "Pycold.Sccd.C41_reported_iff",
    "Pycold.Sccd.C41_strength",
    "Pycold.Sccd.C41_strength_detect",
    "Pycold.Sccd.C41_date_after_detect_partial",
    "Pycold.Sccd.C41_date_after_update_partial",
    "Pycold.Sccd.C41_phantom_date",
    "Pycold.Sccd.C41_conse_5_late",
    "Pycold.Sccd.C41_conse_7_8_raises"
   ],
   "note": "the condition is proved for conse up to 6; the date is right for conse = 6 after calls bringing at least 6 observations; the other cases are refuted"
  },
  {
   "property": "C53",
   "status": "partial",
   "theorems": [
    "Pycold.Sccd.C53_in_bounds_partial",
    "Pycold.Sccd.C53_conse_7_out_of_bounds"
   ],
   "note": "proved for conse up to 6; refuted for 7"
  },
  {
   "property": "C54",
   "status": "partial",
   "theorems": [
    "Pycold.Sccd.C54_records_of_first_call",
    "Pycold.Sccd.C54_records_of_sequences_partial"
   ],
   "note": "proved for a first call with any conse; for sequences of calls when monitor mode is used with conse = 8 and queues stay below 240"
  },
  {
   "property": "C55",
   "status": "proved",
   "theorems": [
    "Pycold.Sccd.C55_spacing",
    "Pycold.Sccd.C55_span_of_first_call",
    "Pycold.Sccd.C55_buffer",
    "Pycold.Sccd.C55_spacing_sequences",
    "Pycold.Sccd.C55_span_of_sequences",
    "Pycold.Sccd.C55_buffer_sequences"
   ],
   "note": "sequences of calls: monitored packs with conse = 8, queues below 240 (C27)"
  },
  {
   "property": "C56",
   "status": "proved",
   "theorems": [
    "Pycold.Sccd.C56_confirmed",
    "Pycold.Sccd.C56_confirmed_detect"
   ],
   "note": "comparisons are assumed to be those of numbers (no NaN)"
  },
  {
   "property": "C57",
   "status": "proved",
   "theorems": [
    "Pycold.Sccd.C57_change_model",
    "Pycold.Sccd.C57_identify_returns_break"
   ],
   "note": ""
  },
  {
   "property": "C22",
   "status": "partial",
   "theorems": [
    "Pycold.Fallback.ofCold_eq",
    "Pycold.Fallback.C22_snow_partial",
    "Pycold.Fallback.C22_snow_mispaired",
    "Pycold.Fallback.C22_clear_exact_partial",
    "Pycold.Fallback.C22_clear_occurred_partial",
    "Pycold.Fallback.C22_thermal_unassigned",
    "Pycold.Fallback.C22_total",
    "Pycold.Fallback.C22_clear_green_mispaired"
   ],
   "note": "proved for bands and inputs where the compaction leaves the pairing intact; in general the claim is refuted by concrete inputs"
  },
  {
   "property": "C23",
   "status": "proved",
   "theorems": [
    "Pycold.Obcold.C23_segments",
    "Pycold.Obcold.C23_records",
    "Pycold.Obcold.C23_outcomes",
    "Pycold.Obcold.C23_last_break_lost",
    "Pycold.Obcold.C23_unassigned_index",
    "Pycold.Obcold.C23_fallback_undetermined",
    "Pycold.Obcold.C23_overrun"
   ],
   "note": "proved for every call that returns; the calls that read an unassigned index, use an undetermined mode or overrun the record buffer are characterised separately"
  },
  {
   "property": "C32",
   "status": "proved",
   "theorems": [
    "Pycold.Kalman.C32_round_trip",
    "Pycold.Kalman.C32_round_trip_state",
    "Pycold.Kalman.C32_prediction",
    "Pycold.Kalman.C32_days",
    "Pycold.Kalman.C32_noise"
   ],
   "note": "exact real arithmetic"
  },
  {
   "property": "C33",
   "status": "partial",
   "theorems": [
    "Pycold.Kalman.C33_textbook",
    "Pycold.Kalman.C33_monitoring",
    "Pycold.Kalman.C33_first_model_partial",
    "Pycold.Kalman.C33_second_model"
   ],
   "note": "proved from any covariance matrix on, in particular for the first model of a call; a second model fitted in the same call may start from a matrix that is no covariance matrix: proved"
  },
  {
   "property": "C58",
   "status": "proved",
   "theorems": [
    "Pycold.Kalman.C33_textbook",
    "Pycold.Kalman.C58_update",
    "Pycold.Kalman.C58_closer",
    "Pycold.Kalman.C32_noise"
   ],
   "note": "exact real arithmetic; for covariance matrices (see C33)"
  },
  {
   "property": "C59",
   "status": "partial",
   "theorems": [
    "Pycold.Kalman.C59_window_partial",
    "Pycold.Kalman.C59_every_observation",
    "Pycold.Kalman.C59_snow_last_left_out"
   ],
   "note": "proved when an observation follows the window; refuted for snow pixels"
  },
  {
   "property": "C42",
   "status": "partial",
   "theorems": [
    "Pycold.Validation.C42_cold_detect_partial",
    "Pycold.Validation.C42_obcold_reconstruct_partial",
    "Pycold.Validation.C42_sccd_detect_partial",
    "Pycold.Validation.C42_sccd_update_partial",
    "Pycold.Validation.C42_sccd_identify",
    "Pycold.Validation.C42_parameters",
    "Pycold.Validation.C42_nan_refused",
    "Pycold.Validation.C42_b_c2_not_validated",
    "Pycold.Validation.C42_cm_output_interval_not_validated"
   ],
   "note": "Exactly which arguments each public function starts working with, as an iff over arbitrary Python values; an error names the first parameter out of range; non-finite numbers are refused wherever a range is documented. Partial because the property fails for b_c2, b_monitor_init and cm_output_interval, which are never validated (witnesses proved), and because sccd_update does not refuse conse of 9 to 11."
  },
  {
   "property": "C43",
   "status": "proved",
   "theorems": [
    "Pycold.Array2d.C43_matrices",
    "Pycold.Array2d.C43_cells",
    "Pycold.Array2d.C43_free_checks",
    "Pycold.Array2d.C43_int_overflow",
    "Pycold.Array2d.C43_size_wraps",
    "Pycold.Array2d.C43_free_foreign"
   ],
   "note": "Byte-level memory model: any program over any number of such arrays refines independent matrices, for sizes that fit int/size_t and a malloc that keeps its contract. Sizes that do not fit are undefined behaviour or wrap (proved); the signature is the only check free makes (proved with a witness)."
  },
  {
   "property": "C44",
   "status": "partial",
   "theorems": [
    "Pycold.Bip.C44_positions",
    "Pycold.Bip.C44_pixel",
    "Pycold.Bip.C44_line_partial",
    "Pycold.Bip.C44_missing_file",
    "Pycold.Bip.C44_sensors_shared",
    "Pycold.Bip.C44_landsat9"
   ],
   "note": "Bands, masks, dates and counts are those of the covering scenes in order, for every pixel of a line and for single pixels. The sensors are delivered only by the single-pixel reader: the line reader shares one sensor buffer between pixels (witness)."
  },
  {
   "property": "C46",
   "status": "proved",
   "theorems": [
    "Pycold.ChangeMap.C46_features",
    "Pycold.ChangeMap.C46_year",
    "Pycold.ChangeMap.C46_unique_segment",
    "Pycold.ChangeMap.C46_before_first",
    "Pycold.ChangeMap.C46_gap",
    "Pycold.ChangeMap.C46_last_day",
    "Pycold.ChangeMap.C46_other_names",
    "Pycold.ChangeMap.C46_cv"
   ],
   "note": "Both versions of extract_features, over rational values and NaN (no rounding, no infinities)."
  },
  {
   "property": "C60",
   "status": "partial",
   "theorems": [
    "Pycold.ChangeMap.C60_no_break",
    "Pycold.ChangeMap.C60_break_map_partial",
    "Pycold.ChangeMap.C60_obcold_partial",
    "Pycold.ChangeMap.C60_obcold_kinds_unique",
    "Pycold.ChangeMap.C60_day_of_year",
    "Pycold.ChangeMap.C60_last_record_skipped",
    "Pycold.ChangeMap.C60_next_pixel_read"
   ],
   "note": "Proved for breaks that have a next segment in their pixel; refuted for the last record of a pixel or block (witnesses)."
  },
  {
   "property": "C61",
   "status": "proved",
   "theorems": [
    "Pycold.ChangeMap.C61_recent",
    "Pycold.ChangeMap.C61_first",
    "Pycold.ChangeMap.C61_sound"
   ],
   "note": ""
  },
  {
   "property": "C39",
   "status": "proved",
   "theorems": [
    "Pycold.Obia.C39_labels",
    "Pycold.Obia.C39_covered",
    "Pycold.Obia.C39_magnitude",
    "Pycold.Obia.C39_connected",
    "Pycold.Obia.C39_support"
   ],
   "note": "flood fill from every seed with the 255-label cycle, all image sizes and numbers of seeds; exact rational magnitudes after the Gaussian filter"
  },
  {
   "property": "C40",
   "status": "proved",
   "theorems": [
    "Pycold.Obia.C40_monotone",
    "Pycold.Obia.C40_size_monotone",
    "Pycold.Obia.C40_change_map",
    "Pycold.Obia.C40_background",
    "Pycold.Obia.C40_uniform_ignored",
    "Pycold.Obia.C40_shipped",
    "Pycold.Obia.C40_negative_slope",
    "Pycold.Obia.labels_exist"
   ],
   "note": "skimage.measure.label is a specification (Labels); log10 an abstract function; refuted for negative slopes"
  },
  {
   "property": "C62",
   "status": "proved",
   "theorems": [
    "Pycold.Obia.C62_date",
    "Pycold.Obia.C62_pixel"
   ],
   "note": ""
  },
  {
   "property": "C63",
   "status": "partial",
   "theorems": [
    "Pycold.Stack.C63_hls",
    "Pycold.Stack.C63_landsat_partial",
    "Pycold.Stack.C63_fill_flag_loses"
   ],
   "note": "Proved for all HLS values and for all Landsat values in which the fill flag comes alone or not at all; with the fill flag and another flag a Landsat value is never fill (proved for every such value)."
  },
  {
   "property": "C64",
   "status": "proved",
   "theorems": [
    "Pycold.Stack.C64_stack",
    "Pycold.Stack.C64_observation",
    "Pycold.Stack.C64_schedule",
    "Pycold.Stack.C64_names",
    "Pycold.Stack.C64_unknown_satellite"
   ],
   "note": "Partitioned stacking of all five products. Hypotheses: images of the size of the tile, regular names, distinct file names, block counts dividing the tile (C66). A date range without scenes and an unknown satellite raise (proved)."
  },
  {
   "property": "C65",
   "status": "partial",
   "theorems": [
    "Pycold.Stack.C65_first_bands_partial",
    "Pycold.Stack.C65_unscaled",
    "Pycold.Stack.C65_swir2_wrong",
    "Pycold.Stack.C65_thermal_wrong"
   ],
   "note": "Holds for the first five bands and for unscaled products; refuted for the second short-wave and the thermal band of Collection 2, whose scalings are swapped (for all numbers outside 14000..15000). Exact arithmetic, no float rounding."
  },
  {
   "property": "C66",
   "status": "partial",
   "theorems": [
    "Pycold.Stack.C66_divides",
    "Pycold.Stack.C66_cover_partial",
    "Pycold.Stack.C66_lost",
    "Pycold.Stack.C66_check_insufficient"
   ],
   "note": "True when the block counts divide the tile; the check of the program accepts configurations that lose rows or columns (witness)."
  },
  {
   "property": "C67",
   "status": "proved",
   "theorems": [
    "Pycold.Stack.C67_bounds"
   ],
   "note": ""
  },
  {
   "property": "C68",
   "status": "proved",
   "theorems": [
    "Pycold.Stack.C68_scenes"
   ],
   "note": ""
  },
  {
   "property": "C69",
   "status": "proved",
   "theorems": [
    "Pycold.C69_refines",
    "Pycold.C69_record_data"
   ],
   "note": "For every arithmetic and solver; `C69_refines` makes the valued program an instance of the program of C05-C11, C21, C48."
  },
  {
   "property": "C70",
   "status": "partial",
   "theorems": [
    "Pycold.C70_later_scenes_partial",
    "Pycold.C70_later_scenes_false"
   ],
   "note": "Proved when the noise floor (median variogram) of the five reflective bands is the same for both series; refuted without, since the noise floor is computed from the whole series."
  },
  {
   "property": "C71",
   "status": "proved",
   "theorems": [
    "Pycold.C71_blue_thermal"
   ],
   "note": "When detection is reached; for series with too few clear scenes only that both fall back."
  },
  {
   "property": "C72",
   "status": "proved",
   "theorems": [
    "Pycold.C72_fit",
    "Pycold.C72_record_curve",
    "Pycold.C72_predict",
    "Pycold.C72_predict_record"
   ],
   "note": "Real arithmetic, any solver."
  },
  {
   "property": "C73",
   "status": "proved",
   "theorems": [
    "Pycold.C73_cm_range",
    "Pycold.C73_magnitude",
    "Pycold.C73_magnitude_first",
    "Pycold.C73_angle_weight",
    "Pycold.C73_nearest_rmse"
   ],
   "note": "Real arithmetic, any solver."
  },
  {
   "property": "C74",
   "status": "proved",
   "theorems": [
    "Pycold.SccdNum.C74_blue_thermal"
   ],
   "note": "For every arithmetic, regression and matrix routine."
  },
  {
   "property": "C75",
   "status": "partial",
   "theorems": [
    "Pycold.SccdNum.C75_first_call",
    "Pycold.SccdNum.C75_sequences_partial",
    "Pycold.SccdNum.C75_passed_over",
    "Pycold.SccdNum.Toy.C75_leftover_covariance"
   ],
   "note": "First call: any `conse`. Sequences of calls: monitored packs with `conse` = 8 (C26) and a covariance stored without loss. The last sentence is refuted: within one call a new model takes over the covariance left by the previous one (`prior` in the theorems), so coefficients depend on the split into calls."
  },
  {
   "property": "C76",
   "status": "partial",
   "theorems": [
    "Pycold.SccdNum.C76_first_call",
    "Pycold.SccdNum.C76_sequences_partial"
   ],
   "note": "First call: any `conse`. Sequences of calls: monitored packs with `conse` = 8 (C26) and a covariance stored without loss. Exact arithmetic: float rounding is not modelled."
  },
  {
   "property": "C77",
   "status": "partial",
   "theorems": [
    "Pycold.SccdNum.C77_same_filter",
    "Pycold.SccdNum.C77_innovation",
    "Pycold.SccdNum.C77_first_segment_partial",
    "Pycold.SccdNum.C77_towards"
   ],
   "note": "Proved for the first segment of a call of `sccd_detect`: its record if it ends with a change, else the monitored model. Later segments of the same call start from a left-over covariance (C33_second_model, C75_leftover_covariance), for which the claim is refuted. Exact arithmetic."
  },
  {
   "property": "C78",
   "status": "partial",
   "theorems": [
    "Pycold.Glmnet.C78_terminates",
    "Pycold.Glmnet.C78_optimal_partial",
    "Pycold.Glmnet.C78_optimal_one",
    "Pycold.Glmnet.C78_not_minimal",
    "Pycold.Glmnet.C78_sizes",
    "Pycold.Glmnet.C78_flat",
    "Pycold.Glmnet.C78_curve_partial",
    "Pycold.Glmnet.C78_cold_record_partial",
    "Pycold.Glmnet.C78_sccd_fit_partial"
   ],
   "note": "Minimal up to the tolerance of the loop: the excess over any other curve is at most (m-2)/10000 times the standard deviation of the values times the distance of the two curves; exact minimality is refuted (C78_not_minimal: two correlated regressors, the solver stops after the first pass). Termination, sizes and the flat case are proved as stated. Exact arithmetic."
  },
  {
   "property": "C79",
   "status": "proved",
   "theorems": [
    "Pycold.ColdNum.C79_no_break",
    "Pycold.ColdNum.C79_one_segment",
    "Pycold.ColdNum.C79_step_found"
   ],
   "note": "Exact arithmetic; the bound of 40 on the range makes the LASSO fits flat (C78). The outcome of the noise screening (robust regression) is a hypothesis."
  },
  {
   "property": "C81",
   "status": "proved",
   "theorems": [
    "Pycold.C81_offset",
    "Pycold.C81_offset_unscreened",
    "Pycold.C81_offset_equivariant"
   ],
   "note": "Exact arithmetic. The robust regression is any function; the conditions on it for green and SWIR1 are those of the statement."
  },
  {
   "property": "C80",
   "status": "proved",
   "theorems": [
    "Pycold.Robust.C80_weighted",
    "Pycold.Robust.C80_majority_close",
    "Pycold.Robust.C80_on_curve",
    "Pycold.Robust.C80_not_flagged",
    "Pycold.Robust.C80_scale",
    "Pycold.Robust.C80_leverage",
    "Pycold.C80_enough",
    "Pycold.C80_no_refusal"
   ],
   "note": "Exact arithmetic. The GSL solvers are any functions with the documented behaviour (`LeastSquares`; shown to exist). `C80_enough` holds for every arithmetic."
  },
  {
   "property": "C82",
   "status": "proved",
   "theorems": [
    "Pycold.SccdNum.C82_detect",
    "Pycold.SccdNum.C82_detect_unscreened",
    "Pycold.SccdNum.C82_detect_equivariant"
   ],
   "note": "Exact arithmetic. The robust regression is any function; the conditions on it for green and SWIR1 are those of the statement. First calls only: with conse below 8 the places of a model that are not used hold zeros, which the next update takes for observations (C26), and these do not follow the constants."
  },
  {
   "property": "C83",
   "status": "proved",
   "theorems": [
    "Pycold.C83_moved",
    "Pycold.C83_moved_origin_free",
    "Pycold.C83_curve"
   ],
   "note": "Exact arithmetic with the true value of pi: the literal of const.h 28 is off by 3e-16, so that with the literal the yearly cycle is not exactly 365.25 days long. The robust regression is any function, with the conditions of the statement."
  },
  {
   "property": "C84",
   "status": "partial",
   "theorems": [
    "Pycold.ChangeMap.C84_no_break",
    "Pycold.ChangeMap.C84_break_map_partial",
    "Pycold.ChangeMap.C84_last_pixel_empty",
    "Pycold.ChangeMap.C84_left_of_block"
   ],
   "note": "Proved for all packs but the last one of the block; refuted for the last one of every block, and for a position to the left of the block."
  },
  {
   "property": "C85",
   "status": "partial",
   "theorems": [
    "Pycold.Recon.C85_block_partial",
    "Pycold.Recon.C85_every_pixel_once",
    "Pycold.Recon.C85_saved",
    "Pycold.Recon.C85_all_fail_raises",
    "Pycold.Recon.C85_no_scenes_raises",
    "Pycold.Recon.C85_no_stack_raises",
    "Pycold.Recon.C85_bounds_ignored"
   ],
   "note": "Proved for every block for which a stack is passed; refuted for blocks without scenes, blocks in which every call raises, bounds on the years and calls without a stack."
  },
  {
   "property": "C86",
   "status": "proved",
   "theorems": [
    "Pycold.Sccd.C86_same_output",
    "Pycold.Sccd.C86_pinpoints",
    "Pycold.Sccd.C86_fails",
    "Pycold.Sccd.C86_overdetection",
    "Pycold.Sccd.C86_short_window",
    "Pycold.Sccd.C86_observations",
    "Pycold.Sccd.Toy.C86_gate_above_threshold",
    "Pycold.Sccd.Toy.C86_past_the_end",
    "Pycold.Sccd.Toy.C86_buffer_overflow"
   ],
   "note": "The conditions of the statement are needed: with gate_tcg above t_cg asking for pinpoint records loses breaks (C86_gate_above_threshold); with conse of 6 or less a record near the end copies values from beyond the last clear observation (C86_past_the_end); forty-one periods with an anomaly write past the buffer (C86_buffer_overflow)."
  },
  {
   "property": "C87",
   "status": "proved",
   "theorems": [
    "Pycold.SccdNum.C87_after_detect",
    "Pycold.SccdNum.C87_after_update",
    "Pycold.SccdNum.C87_confirmed",
    "Pycold.SccdNum.C87_default_threshold"
   ],
   "note": "Exact arithmetic and conse = 6, as in the statement: with another value sccd_identify looks at the wrong stored observations (C41)."
  },
  {
   "property": "C88",
   "status": "proved",
   "theorems": [
    "Pycold.Pack.C88_round_trip",
    "Pycold.Pack.C88_file",
    "Pycold.Pack.C88_other_lists",
    "Pycold.Pack.C88_places"
   ],
   "note": "pickle and numpy's tolist are taken to keep values. C88_places compares finite lists and is decided in the kernel."
  },
  {
   "property": "C89",
   "status": "partial",
   "theorems": [
    "Pycold.Pack.C89_read_iff",
    "Pycold.Pack.C89_model_raises",
    "Pycold.Pack.C89_file_raises",
    "Pycold.Pack.C89_maps_without_packs",
    "Pycold.Pack.C89_no_files_partial",
    "Pycold.Pack.C89_coefs_raise"
   ],
   "note": "Refuted as soon as one record file is there; proved for missing record files only."
  },
  {
   "property": "C90",
   "status": "partial",
   "theorems": [
    "Pycold.Pack.C90_break_maps",
    "Pycold.Pack.C90_missing_with_coefs"
   ],
   "note": "Proved but for coefficients together with a missing record file, where the negation is proved. The maps of a block are any function (C60); arrangement of the blocks in the image: C36."
  },
  {
   "property": "C91",
   "status": "partial",
   "theorems": [
    "Pycold.Classifier.C91_cover_maps_partial",
    "Pycold.Classifier.C91_uncovered",
    "Pycold.Classifier.C91_covered",
    "Pycold.Classifier.C91_not_square",
    "Pycold.Classifier.C91_sorted"
   ],
   "note": "Proved for tiles with as many block columns as block rows; for all others C91_not_square proves that the maps have the wrong shape (C35). Features are rationals (no rounding to float32); the classifier is any function of the row of features."
  },
  {
   "property": "C92",
   "status": "partial",
   "theorems": [
    "Pycold.Classifier.C92_training_partial",
    "Pycold.Classifier.C92_background",
    "Pycold.Classifier.C92_no_labels",
    "Pycold.Classifier.C92_other_year"
   ],
   "note": "Proved for square grids of blocks, and for reference maps in which label 0 occurs only together with the last category; C92_background proves that with label 0 and without the last category training always raises. C92_no_labels and C92_other_year: the two further conditions are needed."
  },
  {
   "property": "C93",
   "status": "partial",
   "theorems": [
    "Pycold.Snapshots.C93_slots",
    "Pycold.Snapshots.C93_first",
    "Pycold.Snapshots.C93_snapshot_partial",
    "Pycold.Snapshots.C93_cover",
    "Pycold.Snapshots.C93_one_year",
    "Pycold.Snapshots.C93_result"
   ],
   "note": "Proved for tiles with as many block columns as block rows and readable block files (else C35 is refuted already) and, with cover maps, for snapshots in more than one calendar year; C93_one_year proves that otherwise the analysis raises. Flood-fill segmentation only; smoothing, connected-part labelling and logarithm are parameters as in C39 and C40."
  },
  {
   "property": "C94",
   "status": "partial",
   "theorems": [
    "Pycold.Ranks.C94_no_exception_partial",
    "Pycold.Ranks.C94_ends",
    "Pycold.Ranks.C94_result",
    "Pycold.Ranks.C94_flag",
    "Pycold.Ranks.C94_waits",
    "Pycold.Ranks.C94_leftover"
   ],
   "note": "Proved for output folders without a file of dates, and (no exception, end) for repeated runs with the same blocks; C94_leftover proves that with the file of a run with other blocks a rank may raise. Partitioned mode; the scenes as in C64; all ranks list the scenes in the same order; saving one file is one step."
  },
  {
   "property": "C95",
   "status": "partial",
   "theorems": [
    "Pycold.Hidden.C95_cold",
    "Pycold.Hidden.C95_obcold",
    "Pycold.Hidden.C95_sccd",
    "Pycold.Hidden.C95_detect",
    "Pycold.Hidden.C95_pinpoint",
    "Pycold.Hidden.C95_session",
    "Pycold.Hidden.C95_snow",
    "Pycold.Hidden.C95_fallback_clouds"
   ],
   "note": "Proved but for the fallback for too few clear observations, for which C95_fallback_clouds proves the negation. The series must be in order and not empty, and for S-CCD at least a year long (else the calls raise); change magnitudes are counted from a given first date."
  },
  {
   "property": "C96",
   "status": "partial",
   "theorems": [
    "Pycold.Repeats.C96_cold",
    "Pycold.Repeats.C96_obcold",
    "Pycold.Repeats.C96_sccd",
    "Pycold.Repeats.C96_detect",
    "Pycold.Repeats.C96_update",
    "Pycold.Repeats.C96_pinpoint",
    "Pycold.Repeats.C96_session",
    "Pycold.Repeats.C96_few",
    "Pycold.Repeats.C96_snow_mode",
    "Pycold.Repeats.C96_few_repeat"
   ],
   "note": "Proved for COLD's standard procedure, OBCOLD's segments, S-CCD outside of the snow mode (a session: no call with mostly snow scenes) and, for values outside the range, the fallback for few clear observations. Negation proved for the snow mode (C96_snow_mode) and for repeated dates in that fallback (C96_few_repeat)."
  },
  {
   "property": "C97",
   "status": "proved",
   "theorems": [
    "Pycold.Utils.C97_there_and_back",
    "Pycold.Utils.C97_back_and_there",
    "Pycold.Utils.C97_next",
    "Pycold.Utils.C97_counts",
    "Pycold.Utils.C97_anchors"
   ],
   "note": "The dates of CPython's datetime, years 1 to 9999; limits of the pandas version in use are not modelled."
  },
  {
   "property": "C98",
   "status": "partial",
   "theorems": [
    "Pycold.Utils.C98_exactly",
    "Pycold.Utils.C98_names",
    "Pycold.Utils.C98_rectangular",
    "Pycold.Utils.C98_bands"
   ],
   "note": "C98_exactly proves the property for square images with one band (or as many bands as lines) and its negation for all others. gdal is specified: Create takes the width first, WriteArray refuses arrays larger than the file, a new file is 0."
  },
  {
   "property": "C99",
   "status": "proved",
   "theorems": [
    "Pycold.Utils.C99_made",
    "Pycold.Utils.C99_raises",
    "Pycold.Utils.C99_others",
    "Pycold.Utils.C99_cover"
   ],
   "note": "That the float division in int(n_cols / n_block_x) gives the integer quotient is C103."
  },
  {
   "property": "C100",
   "status": "proved",
   "theorems": [
    "Pycold.Extent.C100_bbox",
    "Pycold.Extent.C100_raises",
    "Pycold.Extent.C100_extent",
    "Pycold.Extent.C100_contains"
   ],
   "note": "Rational numbers; rounding of floats is not modelled."
  },
  {
   "property": "C101",
   "status": "proved",
   "theorems": [
    "Pycold.Turn.C101_lengths",
    "Pycold.Turn.C101_reverse",
    "Pycold.Turn.C101_aligned",
    "Pycold.Turn.C101_opposite"
   ],
   "note": "Exact arithmetic. With rounding the argument of acosf may exceed 1, which gives NaN; so does a zero vector, which the theorems about 0 and 179 degrees exclude."
  },
  {
   "property": "C102",
   "status": "partial",
   "theorems": [
    "Pycold.Single.C102_one_band_partial",
    "Pycold.Single.C102_nan",
    "Pycold.Single.C102_refused",
    "Pycold.Single.C102_stored"
   ],
   "note": "Proved in exact arithmetic (C101_aligned). C102_refused proves the negation for COLD in single precision: any number of equal vectors (4, 4, 0, 0, 0) has the mean angle NaN, whatever the C library, as long as sqrtf, * and / are rounded correctly. Limits of the exponent are not modelled."
  },
  {
   "property": "C103",
   "status": "proved",
   "theorems": [
    "Pycold.Double.C103_floor",
    "Pycold.Double.C103_ceil",
    "Pycold.Double.C103_sum",
    "Pycold.Double.C103_model",
    "Pycold.Double.C103_blocks",
    "Pycold.Double.C103_large"
   ],
   "note": "Python divides integers with correct rounding; limits of the exponent are not modelled (quotients of integers below 2^53 do not reach them)."
  }
 ]
}