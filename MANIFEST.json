{
 "claims": [
  {
   "property": "C01",
   "status": "proved",
   "theorems": [
    "Visqol.C01_mos_range",
    "Visqol.C01_run"
   ],
   "note": ""
  },
  {
   "property": "C02",
   "status": "proved",
   "theorems": [
    "Visqol.C02_extremes"
   ],
   "note": ""
  },
  {
   "property": "C03",
   "status": "proved",
   "theorems": [
    "Visqol.C03_mapping",
    "Visqol.C03_mapping_scaled",
    "Visqol.C03_monotone",
    "Visqol.C03_monotone_rounded",
    "Visqol.C03_order",
    "Visqol.C03_scaled",
    "Visqol.C03_scaled_rounded"
   ],
   "note": ""
  },
  {
   "property": "C04",
   "status": "proved",
   "theorems": [
    "Visqol.C04_result",
    "Visqol.C04_result_rounded",
    "Visqol.C04_scaled",
    "Visqol.C04_unscaled"
   ],
   "note": ""
  },
  {
   "property": "C05",
   "status": "proved",
   "theorems": [
    "Visqol.C05_shapes",
    "Visqol.C05_shapes_run",
    "Visqol.C05_tool"
   ],
   "note": ""
  },
  {
   "property": "C06",
   "status": "proved",
   "theorems": [
    "Visqol.C06_aggregates",
    "Visqol.C06_energy_rounded",
    "Visqol.C06_rounded"
   ],
   "note": ""
  },
  {
   "property": "C07",
   "status": "proved",
   "theorems": [
    "Visqol.C07_nsim_bounds",
    "Visqol.C07_rounded",
    "Visqol.C07_run_bounds",
    "Visqol.C07_total"
   ],
   "note": ""
  },
  {
   "property": "C08",
   "status": "proved",
   "theorems": [
    "Visqol.C08_deviation_rounded",
    "Visqol.C08_nsim_self",
    "Visqol.C08_nsim_self_rounded",
    "Visqol.C08_variance_nonneg"
   ],
   "note": ""
  },
  {
   "property": "C09",
   "status": "proved",
   "theorems": [
    "Visqol.C09_nsim_symmetric",
    "Visqol.C09_symmetric_rounded"
   ],
   "note": ""
  },
  {
   "property": "C10",
   "status": "proved",
   "theorems": [
    "Visqol.C10_not_negative",
    "Visqol.C10_patch_std",
    "Visqol.C10_patch_std_rounded",
    "Visqol.C10_run_std"
   ],
   "note": ""
  },
  {
   "property": "C11",
   "status": "proved",
   "theorems": [
    "Visqol.C11_fullband_succeeds",
    "Visqol.C11_mos_maximal",
    "Visqol.C11_perfect",
    "Visqol.C11_rounded",
    "Visqol.C11_wideband_succeeds"
   ],
   "note": ""
  },
  {
   "property": "C12",
   "status": "proved",
   "theorems": [
    "Visqol.C12_gain",
    "Visqol.C12_rounded"
   ],
   "note": ""
  },
  {
   "property": "C13",
   "status": "proved",
   "theorems": [
    "Visqol.C13_level_matching",
    "Visqol.C13_rounded",
    "Visqol.C13_shape"
   ],
   "note": ""
  },
  {
   "property": "C14",
   "status": "proved",
   "theorems": [
    "Visqol.C14_history",
    "Visqol.C14_history_compute"
   ],
   "note": ""
  },
  {
   "property": "C15",
   "status": "proved",
   "theorems": [
    "Visqol.C15_batch_fail",
    "Visqol.C15_batch_ok",
    "Visqol.C15_cases",
    "Visqol.C15_ok_only"
   ],
   "note": ""
  },
  {
   "property": "C16",
   "status": "proved",
   "theorems": [
    "Visqol.C16_mismatch",
    "Visqol.C16_only_mismatch",
    "Visqol.C16_same_rate"
   ],
   "note": ""
  },
  {
   "property": "C17",
   "status": "proved",
   "theorems": [
    "Visqol.C17_only_16_bit",
    "Visqol.C17_only_then",
    "Visqol.C17_run",
    "Visqol.C17_samples_kept"
   ],
   "note": ""
  },
  {
   "property": "C18",
   "status": "proved",
   "theorems": [
    "Visqol.C18_downmix",
    "Visqol.C18_downmix_real",
    "Visqol.C18_downmix_rounded"
   ],
   "note": ""
  },
  {
   "property": "C19",
   "status": "proved",
   "theorems": [
    "Visqol.C19_empty"
   ],
   "note": ""
  },
  {
   "property": "C20",
   "status": "proved",
   "theorems": [
    "Visqol.C20_only_too_short",
    "Visqol.C20_run",
    "Visqol.C20_run_only",
    "Visqol.C20_too_short"
   ],
   "note": ""
  },
  {
   "property": "C21",
   "status": "proved",
   "theorems": [
    "Visqol.C21_locality",
    "Visqol.C21_shape"
   ],
   "note": ""
  },
  {
   "property": "C22",
   "status": "proved",
   "theorems": [
    "Visqol.C22_bands",
    "Visqol.C22_bands_rounded",
    "Visqol.C22_result",
    "Visqol.C22_result_rounded",
    "Visqol.C22_rows",
    "Visqol.C22_rows_rounded"
   ],
   "note": ""
  },
  {
   "property": "C23",
   "status": "proved",
   "theorems": [
    "Visqol.C23_floored",
    "Visqol.C23_formula",
    "Visqol.C23_formula_rounded",
    "Visqol.C23_rounded",
    "Visqol.C23_total"
   ],
   "note": ""
  },
  {
   "property": "C24",
   "status": "proved",
   "theorems": [
    "Visqol.C24_nan_free"
   ],
   "note": ""
  },
  {
   "property": "C25",
   "status": "proved",
   "theorems": [
    "Visqol.C25_tiling",
    "Visqol.C25_too_small"
   ],
   "note": ""
  },
  {
   "property": "C26",
   "status": "proved",
   "theorems": [
    "Visqol.C26_wideband"
   ],
   "note": ""
  },
  {
   "property": "C27",
   "status": "proved",
   "theorems": [
    "Visqol.C27_patches_panic",
    "Visqol.C27_short_wideband"
   ],
   "note": ""
  },
  {
   "property": "C28",
   "status": "proved",
   "theorems": [
    "Visqol.C28_find_panics",
    "Visqol.C28_fullband",
    "Visqol.C28_never_too_different",
    "Visqol.C28_wideband"
   ],
   "note": ""
  },
  {
   "property": "C29",
   "status": "proved",
   "theorems": [
    "Visqol.C29_smoothing"
   ],
   "note": ""
  },
  {
   "property": "C30",
   "status": "proved",
   "theorems": [
    "Visqol.C30_first_kept",
    "Visqol.C30_in_samples",
    "Visqol.C30_in_samples_rounded",
    "Visqol.C30_kept_iff"
   ],
   "note": ""
  },
  {
   "property": "C31",
   "status": "proved",
   "theorems": [
    "Visqol.C31_level_invariant",
    "Visqol.C31_rounded"
   ],
   "note": ""
  },
  {
   "property": "C32",
   "status": "proved",
   "theorems": [
    "Visqol.C32_in_order",
    "Visqol.C32_times_increase"
   ],
   "note": ""
  },
  {
   "property": "C33",
   "status": "proved",
   "theorems": [
    "Visqol.C33_optimal",
    "Visqol.C33_optimal_rounded"
   ],
   "note": ""
  },
  {
   "property": "C34",
   "status": "proved",
   "theorems": [
    "Visqol.C34_no_panic",
    "Visqol.C34_no_panic_rounded"
   ],
   "note": ""
  },
  {
   "property": "C35",
   "status": "proved",
   "theorems": [
    "Visqol.C35_matched_or_silent",
    "Visqol.C35_silent_unchanged",
    "Visqol.C35_silent_unchanged_exact"
   ],
   "note": ""
  },
  {
   "property": "C36",
   "status": "proved",
   "theorems": [
    "Visqol.C36_never_lower",
    "Visqol.C36_never_lower_exact"
   ],
   "note": ""
  },
  {
   "property": "C37",
   "status": "proved",
   "theorems": [
    "Visqol.C37_equal_length",
    "Visqol.C37_exact"
   ],
   "note": ""
  },
  {
   "property": "C38",
   "status": "proved",
   "theorems": [
    "Visqol.C38_rounded",
    "Visqol.C38_slice"
   ],
   "note": ""
  },
  {
   "property": "C39",
   "status": "proved",
   "theorems": [
    "Visqol.C39_only_shifts"
   ],
   "note": ""
  },
  {
   "property": "C40",
   "status": "proved",
   "theorems": [
    "Visqol.C40_best_lag",
    "Visqol.C40_rounded"
   ],
   "note": ""
  },
  {
   "property": "C41",
   "status": "proved",
   "theorems": [
    "Visqol.C41_even",
    "Visqol.C41_exact_on_powers",
    "Visqol.C41_exact_small",
    "Visqol.C41_next_pow_two_bounds",
    "Visqol.C41_not_a_power"
   ],
   "note": ""
  },
  {
   "property": "C42",
   "status": "proved",
   "theorems": [
    "Visqol.C42_conv",
    "Visqol.C42_conv_real",
    "Visqol.C42_conv_symmetric",
    "Visqol.C42_rounded"
   ],
   "note": ""
  },
  {
   "property": "C43",
   "status": "proved",
   "theorems": [
    "Visqol.C43_rounded",
    "Visqol.C43_window_average",
    "Visqol.C43_window_weights"
   ],
   "note": ""
  },
  {
   "property": "C44",
   "status": "proved",
   "theorems": [
    "Visqol.C44_biquad",
    "Visqol.C44_causal",
    "Visqol.C44_chunks",
    "Visqol.C44_length",
    "Visqol.C44_linear",
    "Visqol.C44_recurrence",
    "Visqol.C44_rounded"
   ],
   "note": ""
  },
  {
   "property": "C45",
   "status": "proved",
   "theorems": [
    "Visqol.C45_outputs_finite",
    "Visqol.C45_stable",
    "Visqol.C45_stable_rounded"
   ],
   "note": ""
  },
  {
   "property": "C46",
   "status": "proved",
   "theorems": [
    "Visqol.C46_run",
    "Visqol.C46_silent_degraded"
   ],
   "note": ""
  },
  {
   "property": "C47",
   "status": "proved",
   "theorems": [
    "Visqol.C47_run",
    "Visqol.C47_silent_reference",
    "Visqol.C47_silent_scored"
   ],
   "note": ""
  },
  {
   "property": "C48",
   "status": "proved",
   "theorems": [
    "Visqol.C48_batch",
    "Visqol.C48_batch_malformed",
    "Visqol.C48_nothing",
    "Visqol.C48_pair"
   ],
   "note": ""
  },
  {
   "property": "C49",
   "status": "proved",
   "theorems": [
    "Visqol.C49_debug_json_last"
   ],
   "note": ""
  },
  {
   "property": "C50",
   "status": "proved",
   "theorems": [
    "Visqol.C50_columns",
    "Visqol.C50_console",
    "Visqol.C50_rows"
   ],
   "note": ""
  },
  {
   "property": "C51",
   "status": "proved",
   "theorems": [
    "Visqol.C51_radius_mod",
    "Visqol.C51_radius_overflow"
   ],
   "note": ""
  },
  {
   "property": "C52",
   "status": "proved",
   "theorems": [
    "Visqol.C52_coarse_times",
    "Visqol.C52_fine_rounded",
    "Visqol.C52_fine_times",
    "Visqol.C52_rounded"
   ],
   "note": ""
  },
  {
   "property": "C53",
   "status": "proved",
   "theorems": [
    "Visqol.C53_drift",
    "Visqol.C53_drift_rounded",
    "Visqol.C53_exact_iff"
   ],
   "note": ""
  },
  {
   "property": "C54",
   "status": "proved",
   "theorems": [
    "Visqol.C54_dropped_from_end"
   ],
   "note": ""
  },
  {
   "property": "C55",
   "status": "proved",
   "theorems": [
    "Visqol.C55_center_freqs"
   ],
   "note": ""
  },
  {
   "property": "C56",
   "status": "proved",
   "theorems": [
    "Visqol.C56_envelope",
    "Visqol.C56_envelope_total",
    "Visqol.C56_formula",
    "Visqol.C56_rounded"
   ],
   "note": ""
  },
  {
   "property": "C57",
   "status": "proved",
   "theorems": [
    "Visqol.C57_patch_sizes"
   ],
   "note": ""
  },
  {
   "property": "C58",
   "status": "proved",
   "theorems": [
    "Visqol.C58_csv_patch_counts"
   ],
   "note": ""
  },
  {
   "property": "C59",
   "status": "proved",
   "theorems": [
    "Visqol.C59_no_names"
   ],
   "note": ""
  },
  {
   "property": "C60",
   "status": "proved",
   "theorems": [
    "Visqol.C60_decided_by_earlier_samples",
    "Visqol.C60_speech_dropped"
   ],
   "note": ""
  },
  {
   "property": "C61",
   "status": "proved",
   "theorems": [
    "Visqol.C61_fullband",
    "Visqol.C61_out_of_reach",
    "Visqol.C61_panics"
   ],
   "note": ""
  },
  {
   "property": "C62",
   "status": "proved",
   "theorems": [
    "Visqol.C62_rounded",
    "Visqol.C62_starts_inside"
   ],
   "note": ""
  },
  {
   "property": "C63",
   "status": "proved",
   "theorems": [
    "Visqol.C63_fullband_succeeds",
    "Visqol.C63_wideband_succeeds"
   ],
   "note": ""
  },
  {
   "property": "C64",
   "status": "proved",
   "theorems": [
    "Visqol.C64_count"
   ],
   "note": ""
  },
  {
   "property": "C65",
   "status": "proved",
   "theorems": [
    "Visqol.C65_deviation_rounded",
    "Visqol.C65_energy_rounded",
    "Visqol.C65_formula",
    "Visqol.C65_rounded",
    "Visqol.C65_same_shapes",
    "Visqol.C65_same_shapes_files"
   ],
   "note": ""
  },
  {
   "property": "C66",
   "status": "proved",
   "theorems": [
    "Visqol.C66_coefficients",
    "Visqol.C66_reported",
    "Visqol.C66_response",
    "Visqol.C66_tone"
   ],
   "note": ""
  },
  {
   "property": "C67",
   "status": "proved",
   "theorems": [
    "Visqol.C67_spacing",
    "Visqol.C67_spacing_rounded"
   ],
   "note": ""
  },
  {
   "property": "C68",
   "status": "proved",
   "theorems": [
    "Visqol.C68_answers",
    "Visqol.C68_same",
    "Visqol.C68_small_model",
    "Visqol.C68_svr",
    "Visqol.C68_wideband",
    "Visqol.C68_wideband_rounded"
   ],
   "note": ""
  },
  {
   "property": "C69",
   "status": "proved",
   "theorems": [
    "Visqol.C69_formula",
    "Visqol.C69_pooled"
   ],
   "note": ""
  },
  {
   "property": "C70",
   "status": "proved",
   "theorems": [
    "Visqol.C70_clear",
    "Visqol.C70_delay",
    "Visqol.C70_rounded",
    "Visqol.C70_unique"
   ],
   "note": ""
  },
  {
   "property": "C71",
   "status": "proved",
   "theorems": [
    "Visqol.C71_origin",
    "Visqol.C71_overcount"
   ],
   "note": ""
  },
  {
   "property": "C72",
   "status": "proved",
   "theorems": [
    "Visqol.C72_window",
    "Visqol.C72_window_rounded"
   ],
   "note": ""
  },
  {
   "property": "C73",
   "status": "proved",
   "theorems": [
    "Visqol.C73_finite"
   ],
   "note": ""
  },
  {
   "property": "C74",
   "status": "proved",
   "theorems": [
    "Visqol.C74_fullband_finite",
    "Visqol.C74_run_fullband",
    "Visqol.C74_run_wideband",
    "Visqol.C74_wideband_finite"
   ],
   "note": ""
  },
  {
   "property": "C75",
   "status": "proved",
   "theorems": [
    "Visqol.C75_clear",
    "Visqol.C75_delayed_copy",
    "Visqol.C75_found",
    "Visqol.C75_rounded",
    "Visqol.C75_same_aligned"
   ],
   "note": ""
  },
  {
   "property": "C76",
   "status": "proved",
   "theorems": [
    "Visqol.C76_11025",
    "Visqol.C76_self_fails"
   ],
   "note": ""
  },
  {
   "property": "C77",
   "status": "proved",
   "theorems": [
    "Visqol.C77_cli_fullband",
    "Visqol.C77_cli_wideband",
    "Visqol.C77_model",
    "Visqol.C77_no_model",
    "Visqol.C77_radius",
    "Visqol.C77_radius_rounded",
    "Visqol.C77_unscaled",
    "Visqol.C77_unscaled_rounded"
   ],
   "note": ""
  },
  {
   "property": "C78",
   "status": "proved",
   "theorems": [
    "Visqol.C78_inaudible",
    "Visqol.C78_quiet"
   ],
   "note": ""
  },
  {
   "property": "C79",
   "status": "proved",
   "theorems": [
    "Visqol.C79_debug",
    "Visqol.C79_half_pair",
    "Visqol.C79_radius",
    "Visqol.C79_release"
   ],
   "note": ""
  },
  {
   "property": "C80",
   "status": "proved",
   "theorems": [
    "Visqol.C80_cli",
    "Visqol.C80_default_radius",
    "Visqol.C80_radius_irrelevant"
   ],
   "note": ""
  },
  {
   "property": "C81",
   "status": "proved",
   "theorems": [
    "Visqol.C81_negative",
    "Visqol.C81_negative_rounded",
    "Visqol.C81_polarity",
    "Visqol.C81_polarity_rounded"
   ],
   "note": ""
  },
  {
   "property": "C82",
   "status": "proved",
   "theorems": [
    "Visqol.C82_extra_failures",
    "Visqol.C82_same_failure",
    "Visqol.C82_same_scores"
   ],
   "note": ""
  },
  {
   "property": "C83",
   "status": "proved",
   "theorems": [
    "Visqol.C83_average",
    "Visqol.C83_copies_rounded",
    "Visqol.C83_opposite_rounded",
    "Visqol.C83_swap_rounded"
   ],
   "note": ""
  },
  {
   "property": "C84",
   "status": "proved",
   "theorems": [
    "Visqol.C84_ceiling",
    "Visqol.C84_ceiling_bands",
    "Visqol.C84_high_bands",
    "Visqol.C84_not_monotone",
    "Visqol.C84_perfect",
    "Visqol.C84_perfect_bands",
    "Visqol.C84_stable",
    "Visqol.C84_threshold"
   ],
   "note": ""
  },
  {
   "property": "C85",
   "status": "proved",
   "theorems": [
    "Visqol.C85_radius_monotone",
    "Visqol.C85_radius_rounded",
    "Visqol.C85_same_count"
   ],
   "note": ""
  },
  {
   "property": "C86",
   "status": "proved",
   "theorems": [
    "Visqol.C86_mean",
    "Visqol.C86_mean_rounded",
    "Visqol.C86_patches",
    "Visqol.C86_patches_rounded",
    "Visqol.C86_patches_score",
    "Visqol.C86_range",
    "Visqol.C86_range_rounded",
    "Visqol.C86_stable",
    "Visqol.C86_stable_rounded"
   ],
   "note": ""
  },
  {
   "property": "C87",
   "status": "proved",
   "theorems": [
    "Visqol.C87_cli",
    "Visqol.C87_debug",
    "Visqol.C87_frame_count_fits",
    "Visqol.C87_radius_wraps",
    "Visqol.C87_release",
    "Visqol.C87_release_batch",
    "Visqol.C87_release_run"
   ],
   "note": ""
  },
  {
   "property": "C88",
   "status": "proved",
   "theorems": [
    "Visqol.C88_fullband",
    "Visqol.C88_run_fullband",
    "Visqol.C88_run_wideband",
    "Visqol.C88_wideband"
   ],
   "note": ""
  },
  {
   "property": "C89",
   "status": "proved",
   "theorems": [
    "Visqol.C89_levels"
   ],
   "note": ""
  },
  {
   "property": "C90",
   "status": "proved",
   "theorems": [
    "Visqol.C90_bad_pair",
    "Visqol.C90_one_result"
   ],
   "note": ""
  },
  {
   "property": "C91",
   "status": "proved",
   "theorems": [
    "Visqol.C91_broken",
    "Visqol.C91_contents",
    "Visqol.C91_failed",
    "Visqol.C91_only_named",
    "Visqol.C91_unwritable"
   ],
   "note": ""
  },
  {
   "property": "C92",
   "status": "proved",
   "theorems": [
    "Visqol.C92_exactly",
    "Visqol.C92_exactly_rounded",
    "Visqol.C92_files",
    "Visqol.C92_or_panic",
    "Visqol.C92_rounded",
    "Visqol.C92_unreadable"
   ],
   "note": ""
  },
  {
   "property": "C93",
   "status": "proved",
   "theorems": [
    "Visqol.C93_fullband",
    "Visqol.C93_fullband_panics",
    "Visqol.C93_fullband_panics_rounded",
    "Visqol.C93_fullband_rounded",
    "Visqol.C93_wideband",
    "Visqol.C93_wideband_panics",
    "Visqol.C93_wideband_panics_rounded",
    "Visqol.C93_wideband_rounded"
   ],
   "note": ""
  },
  {
   "property": "C94",
   "status": "proved",
   "theorems": [
    "Visqol.C94_csv",
    "Visqol.C94_debug",
    "Visqol.C94_finite",
    "Visqol.C94_json_text",
    "Visqol.C94_null"
   ],
   "note": ""
  },
  {
   "property": "C95",
   "status": "proved",
   "theorems": [
    "Visqol.C95_distinct",
    "Visqol.C95_error",
    "Visqol.C95_numbers",
    "Visqol.C95_status",
    "Visqol.C95_success"
   ],
   "note": ""
  },
  {
   "property": "C96",
   "status": "proved",
   "theorems": [
    "Visqol.C96_copy",
    "Visqol.C96_found",
    "Visqol.C96_perfect",
    "Visqol.C96_rounded",
    "Visqol.C96_spectrogram",
    "Visqol.C96_spectrogram_rounded"
   ],
   "note": ""
  },
  {
   "property": "C97",
   "status": "proved",
   "theorems": [
    "Visqol.C97_close",
    "Visqol.C97_close_rounded",
    "Visqol.C97_levels",
    "Visqol.C97_mos",
    "Visqol.C97_patch",
    "Visqol.C97_result"
   ],
   "note": ""
  },
  {
   "property": "C98",
   "status": "proved",
   "theorems": [
    "Visqol.C98_gain",
    "Visqol.C98_gain_rounded",
    "Visqol.C98_levels",
    "Visqol.C98_similarity",
    "Visqol.C98_sound",
    "Visqol.C98_spectrogram"
   ],
   "note": ""
  },
  {
   "property": "C99",
   "status": "proved",
   "theorems": [
    "Visqol.C99_amplitudes",
    "Visqol.C99_decibels",
    "Visqol.C99_decibels_rounded",
    "Visqol.C99_fullband",
    "Visqol.C99_patch",
    "Visqol.C99_patch_rounded",
    "Visqol.C99_result",
    "Visqol.C99_signal"
   ],
   "note": ""
  }
 ]
}