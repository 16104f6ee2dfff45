{
 "claims": [
  {
   "property": "C01",
   "status": "proved",
   "theorems": [
    "Diffmah.C01_mass_today",
    "Diffmah.C01_mass_today_array"
   ],
   "note": ""
  },
  {
   "property": "C02",
   "status": "proved",
   "theorems": [
    "Diffmah.C02_frozen_after_peak",
    "Diffmah.C02_independent_before_peak",
    "Diffmah.C02_array"
   ],
   "note": ""
  },
  {
   "property": "C03",
   "status": "proved",
   "theorems": [
    "Diffmah.C03_strictly_increasing_until_peak",
    "Diffmah.C03_never_decreases",
    "Diffmah.C03_array",
    "Diffmah.C03_until_today",
    "Diffmah.C03_threshold_sharp"
   ],
   "note": ""
  },
  {
   "property": "C04",
   "status": "proved",
   "theorems": [
    "Diffmah.C04_rate_is_derivative",
    "Diffmah.C04_rate_at_peak_is_left_derivative",
    "Diffmah.C04_two_gradients_agree"
   ],
   "note": ""
  },
  {
   "property": "C05",
   "status": "proved",
   "theorems": [
    "Diffmah.C05_rate_integrates_to_mass"
   ],
   "note": ""
  },
  {
   "property": "C06",
   "status": "proved",
   "theorems": [
    "Diffmah.C06_rate_zero_after_peak",
    "Diffmah.C06_rate_positive_until_peak",
    "Diffmah.C06_array_nonneg"
   ],
   "note": ""
  },
  {
   "property": "C07",
   "status": "proved",
   "theorems": [
    "Diffmah.C07_logm0_rescales",
    "Diffmah.C07_rate_rescales"
   ],
   "note": ""
  },
  {
   "property": "C08",
   "status": "proved",
   "theorems": [
    "Diffmah.C08_later_peak_more_massive"
   ],
   "note": ""
  },
  {
   "property": "C09",
   "status": "proved",
   "theorems": [
    "Diffmah.C09_power_law_envelope"
   ],
   "note": ""
  },
  {
   "property": "C10",
   "status": "proved",
   "theorems": [
    "Diffmah.C10_rows_are_single_haloes",
    "Diffmah.C10_shape",
    "Diffmah.C10_size_mismatch_rejected",
    "Diffmah.C10_permutation"
   ],
   "note": ""
  },
  {
   "property": "C11",
   "status": "proved",
   "theorems": [
    "Diffmah.C11_pointwise",
    "Diffmah.C11_grid_independent",
    "Diffmah.C11_scalar_kernel"
   ],
   "note": ""
  },
  {
   "property": "C12",
   "status": "proved",
   "theorems": [
    "Diffmah.C12_bounded_params_valid",
    "Diffmah.C12_bounded_params_finite"
   ],
   "note": ""
  },
  {
   "property": "C13",
   "status": "proved",
   "theorems": [
    "Diffmah.C13_unbounded_of_bounded"
   ],
   "note": ""
  },
  {
   "property": "C14",
   "status": "proved",
   "theorems": [
    "Diffmah.C14_bounded_of_unbounded",
    "Diffmah.C14_bijection"
   ],
   "note": ""
  },
  {
   "property": "C15",
   "status": "proved",
   "theorems": [
    "Diffmah.C15_finite_iff_valid",
    "Diffmah.C15_entry_not_finite"
   ],
   "note": ""
  },
  {
   "property": "C16",
   "status": "proved",
   "theorems": [
    "Diffmah.C16_finite_history",
    "Diffmah.C16_zero_time",
    "Diffmah.C16_negative_time"
   ],
   "note": ""
  },
  {
   "property": "C17",
   "status": "proved",
   "theorems": [
    "Diffmah.C17_u_params_entry_points"
   ],
   "note": ""
  },
  {
   "property": "C18",
   "status": "proved",
   "theorems": [
    "Diffmah.C18_strictly_increasing",
    "Diffmah.C18_limits"
   ],
   "note": ""
  },
  {
   "property": "C19",
   "status": "proved",
   "theorems": [
    "Diffmah.C19_sigmoid_between",
    "Diffmah.C19_sigmoid_shape",
    "Diffmah.C19_utils_copies_agree"
   ],
   "note": ""
  },
  {
   "property": "C20",
   "status": "proved",
   "theorems": [
    "Diffmah.C20_inverse_of_sigmoid",
    "Diffmah.C20_sigmoid_of_inverse",
    "Diffmah.C20_inverse_special_values",
    "Diffmah.C20_utils_copy",
    "Diffmah.C20_utils_round_trips"
   ],
   "note": ""
  },
  {
   "property": "C21",
   "status": "proved",
   "theorems": [
    "Diffmah.C21_dt_values",
    "Diffmah.C21_dt_tiling",
    "Diffmah.C21_dt_positive",
    "Diffmah.C21_dt_sum",
    "Diffmah.C21_dt_defined"
   ],
   "note": ""
  },
  {
   "property": "C22",
   "status": "proved",
   "theorems": [
    "Diffmah.C22_too_short"
   ],
   "note": ""
  },
  {
   "property": "C23",
   "status": "proved",
   "theorems": [
    "Diffmah.C23_cholesky_layout",
    "Diffmah.C23_each_parameter_once"
   ],
   "note": ""
  },
  {
   "property": "C24",
   "status": "proved",
   "theorems": [
    "Diffmah.C24_covariance_entry",
    "Diffmah.C24_covariance_properties",
    "Diffmah.C24_corr_of_cov",
    "Diffmah.C24_cov_of_corr",
    "Diffmah.C24_zero_entry"
   ],
   "note": ""
  },
  {
   "property": "C25",
   "status": "proved",
   "theorems": [
    "Diffmah.C25_trimmed_mean_value",
    "Diffmah.C25_percentile",
    "Diffmah.C25_order_independent",
    "Diffmah.C25_between_percentiles",
    "Diffmah.C25_affine"
   ],
   "note": ""
  },
  {
   "property": "C26",
   "status": "partial",
   "theorems": [
    "Diffmah.C26_zero_trim_partial",
    "Diffmah.C26_not_the_mean",
    "Diffmah.C26_nan_without_interior"
   ],
   "note": "The promised equivalence with the ordinary/scipy trimmed mean is false of the code (strict comparisons drop the extreme values): C26_not_the_mean and C26_nan_without_interior give counterexamples; C26_zero_trim_partial states exactly what is computed."
  },
  {
   "property": "C27",
   "status": "proved",
   "theorems": [
    "Diffmah.C27_same_mean",
    "Diffmah.C27_unbiased_variance"
   ],
   "note": ""
  },
  {
   "property": "C28",
   "status": "proved",
   "theorems": [
    "Diffmah.C28_broadcast",
    "Diffmah.C28_rejects_mixed_sizes"
   ],
   "note": ""
  },
  {
   "property": "C29",
   "status": "proved",
   "theorems": [
    "Diffmah.Fit.C29_skip_iff",
    "Diffmah.Fit.C29_skipped",
    "Diffmah.Fit.C29_fitted",
    "Diffmah.Fit.C29_errors"
   ],
   "note": ""
  },
  {
   "property": "C30",
   "status": "proved",
   "theorems": [
    "Diffmah.Fit.C30_fitted_parameters_valid"
   ],
   "note": ""
  },
  {
   "property": "C31",
   "status": "proved",
   "theorems": [
    "Diffmah.Fit.C31_tpeak_fixed",
    "Diffmah.Fit.C31_tpeak_inferred",
    "Diffmah.Fit.C31_tpeak_out_of_bounds"
   ],
   "note": ""
  },
  {
   "property": "C32",
   "status": "proved",
   "theorems": [
    "Diffmah.Fit.C32_first_index_of_last",
    "Diffmah.Fit.C32_first_peak",
    "Diffmah.Fit.C32_not_peak_if_not_monotone",
    "Diffmah.Fit.C32_halopop"
   ],
   "note": ""
  },
  {
   "property": "C33",
   "status": "proved",
   "theorems": [
    "Diffmah.Fit.C33_target_times",
    "Diffmah.Fit.C33_default_cuts"
   ],
   "note": ""
  },
  {
   "property": "C34",
   "status": "proved",
   "theorems": [
    "Diffmah.Fit.C34_running_peak"
   ],
   "note": ""
  },
  {
   "property": "C35",
   "status": "partial",
   "theorems": [
    "Diffmah.Fit.C35_low_mass_point_used",
    "Diffmah.Fit.C35_partial"
   ],
   "note": "A low-mass point can survive the cuts because clipped masses exceed lgm_min by construction: C35_low_mass_point_used is a concrete counterexample; C35_partial states the filter exactly as computed."
  },
  {
   "property": "C36",
   "status": "proved",
   "theorems": [
    "Diffmah.Fit.C36_bfgs_used",
    "Diffmah.Fit.C36_adam_used",
    "Diffmah.Fit.C36_code_used"
   ],
   "note": ""
  },
  {
   "property": "C37",
   "status": "proved",
   "theorems": [
    "Diffmah.Fit.C37_best_step",
    "Diffmah.Fit.C37_wrapper_best_of_history"
   ],
   "note": ""
  },
  {
   "property": "C38",
   "status": "proved",
   "theorems": [
    "Diffmah.Fit.C38_first_step_fails",
    "Diffmah.Fit.C38_truncated",
    "Diffmah.Fit.C38_terminates_iff",
    "Diffmah.Fit.C38_tolerance_flagged_as_failure",
    "Diffmah.Fit.C38_wrapper_terminates_iff"
   ],
   "note": ""
  },
  {
   "property": "C39",
   "status": "proved",
   "theorems": [
    "Diffmah.Fit.C39_never_worse_than_start"
   ],
   "note": ""
  },
  {
   "property": "C40",
   "status": "proved",
   "theorems": [
    "Diffmah.Fit.C40_mean_square",
    "Diffmah.Fit.C40_nonneg",
    "Diffmah.Fit.C40_zero_iff"
   ],
   "note": ""
  },
  {
   "property": "C41",
   "status": "proved",
   "theorems": [
    "Diffmah.Fit.C41_gradient"
   ],
   "note": ""
  },
  {
   "property": "C42",
   "status": "partial",
   "theorems": [
    "Diffmah.Text.C42_roundtrip_partial",
    "Diffmah.Text.C42_reprint",
    "Diffmah.Text.C42_fill_exact",
    "Diffmah.Text.C42_halo_id_unreadable",
    "Diffmah.Text.C42_halo_id_first_field"
   ],
   "note": "Proved for lines without halo id; the halo-id part is false of the code (C42_halo_id_unreadable: ValueError for every result and id)."
  },
  {
   "property": "C43",
   "status": "partial",
   "theorems": [
    "Diffmah.Text.C43_eight_columns_partial",
    "Diffmah.Text.C43_nine_columns_partial",
    "Diffmah.Text.C43_names",
    "Diffmah.Text.C43_bad_cell",
    "Diffmah.Text.C43_other_widths_dropped",
    "Diffmah.Text.C43_one_dimensional"
   ],
   "note": "Proved for eight and nine columns, including the names and bad cells; tables of other widths are silently dropped (C43_other_widths_dropped), so the last clause is false of the code."
  },
  {
   "property": "C44",
   "status": "partial",
   "theorems": [
    "Diffmah.Text.C44_parallel_is_serial_partial",
    "Diffmah.Text.C44_rank_independent_partial",
    "Diffmah.Text.C44_too_few_haloes",
    "Diffmah.Text.C44_no_ranks"
   ],
   "note": "Proved for every number of ranks with at least two haloes per rank; with fewer the run fails (C44_too_few_haloes), so the full statement is false of the code."
  },
  {
   "property": "C45",
   "status": "proved",
   "theorems": [
    "Diffmah.Measure.C45_final_time"
   ],
   "note": ""
  },
  {
   "property": "C46",
   "status": "proved",
   "theorems": [
    "Diffmah.Measure.C46_kept_iff",
    "Diffmah.Measure.C46_logmp_irrelevant",
    "Diffmah.Measure.C46_shift_invariant",
    "Diffmah.Measure.C46_no_columns"
   ],
   "note": ""
  },
  {
   "property": "C47",
   "status": "proved",
   "theorems": [
    "Diffmah.C47_component_roundtrip"
   ],
   "note": ""
  },
  {
   "property": "C48",
   "status": "partial",
   "theorems": [
    "Diffmah.C48_beta_roundtrip_partial",
    "Diffmah.C48_alpha_is_lost"
   ],
   "note": "The code violates the property (late_index_bimod copies the beta parameters over the alpha ones): C48_alpha_is_lost is the refutation, C48_beta_roundtrip_partial what remains true. Missing: the alpha half."
  },
  {
   "property": "C49",
   "status": "partial",
   "theorems": [
    "Diffmah.C49_u_roundtrip_partial",
    "Diffmah.C49_p_roundtrip_partial",
    "Diffmah.C49_not_a_roundtrip"
   ],
   "note": "Fails only in the three late_index alpha parameters because of C48: C49_not_a_roundtrip is the refutation; every other parameter is proved to round-trip in both directions."
  },
  {
   "property": "C50",
   "status": "proved",
   "theorems": [
    "Diffmah.C50_no_collision",
    "Diffmah.C50_partition",
    "Diffmah.C50_partition_unbounded",
    "Diffmah.C50_exclude_then_merge",
    "Diffmah.C50_exclude_restores",
    "Diffmah.C50_unknown_name_raises"
   ],
   "note": ""
  },
  {
   "property": "C51",
   "status": "proved",
   "theorems": [
    "Diffmah.C51_covariance"
   ],
   "note": ""
  },
  {
   "property": "C52",
   "status": "proved",
   "theorems": [
    "Diffmah.C52_frac_early"
   ],
   "note": ""
  },
  {
   "property": "C53",
   "status": "proved",
   "theorems": [
    "Diffmah.C53_early_shape",
    "Diffmah.C53_late_shape",
    "Diffmah.C53_early_index_pop",
    "Diffmah.C53_any_parameters"
   ],
   "note": ""
  },
  {
   "property": "C54",
   "status": "proved",
   "theorems": [
    "Diffmah.C54_logm0_increasing"
   ],
   "note": ""
  },
  {
   "property": "C55",
   "status": "partial",
   "theorems": [
    "Diffmah.C55_mean_params_partial",
    "Diffmah.C55_massive_haloes_invalid",
    "Diffmah.C55_valid_masses"
   ],
   "note": "logtc and the indices are proved in bounds with late < early for all inputs, and full validity in an explicit range of observed masses and times; outside it the present-day mass is not clipped and is out of bounds, giving NaN (C55_massive_haloes_invalid), so the unconditional statement is false of the code."
  },
  {
   "property": "C56",
   "status": "proved",
   "theorems": [
    "Diffmah.C56_halo",
    "Diffmah.C56_range",
    "Diffmah.C56_monotone",
    "Diffmah.C56_inverts_cdf",
    "Diffmah.C56_population"
   ],
   "note": ""
  },
  {
   "property": "C57",
   "status": "proved",
   "theorems": [
    "Diffmah.C57_halo",
    "Diffmah.C57_range",
    "Diffmah.C57_population",
    "Diffmah.C57_sats"
   ],
   "note": ""
  },
  {
   "property": "C58",
   "status": "proved",
   "theorems": [
    "Diffmah.C58_single",
    "Diffmah.C58_population",
    "Diffmah.C58_in_range",
    "Diffmah.C58_histories"
   ],
   "note": ""
  },
  {
   "property": "C59",
   "status": "proved",
   "theorems": [
    "Diffmah.C59_early_or_late",
    "Diffmah.C59_histories"
   ],
   "note": ""
  },
  {
   "property": "C60",
   "status": "proved",
   "theorems": [
    "Diffmah.C60_t_peak_honoured",
    "Diffmah.C60_in_range"
   ],
   "note": ""
  },
  {
   "property": "C61",
   "status": "proved",
   "theorems": [
    "Diffmah.C61_histories_match"
   ],
   "note": ""
  },
  {
   "property": "C62",
   "status": "proved",
   "theorems": [
    "Diffmah.C62_moments_of_mixture"
   ],
   "note": ""
  },
  {
   "property": "C63",
   "status": "proved",
   "theorems": [
    "Diffmah.C63_single_bin",
    "Diffmah.C63_many_bins",
    "Diffmah.C63_censat",
    "Diffmah.C63_u_params"
   ],
   "note": ""
  },
  {
   "property": "C64",
   "status": "partial",
   "theorems": [
    "Diffmah.C64_bins_partial",
    "Diffmah.C64_censat_partial",
    "Diffmah.C64_key_reused",
    "Diffmah.C64_haloes_partial",
    "Diffmah.C64_supplied_t_peak_partial",
    "Diffmah.C64_histories_partial",
    "Diffmah.C64_sample_partial"
   ],
   "note": "False of the code when t_peak is not supplied: the key that draws t_peak also draws the early scatter (C64_key_reused). With supplied t_peak no key is used twice (C64_supplied_t_peak_partial), and keys are never shared between haloes or with the early/late selection (C64_haloes_partial, C64_histories_partial)."
  },
  {
   "property": "C65",
   "status": "proved",
   "theorems": [
    "Diffmah.C65_ftpt0"
   ],
   "note": ""
  },
  {
   "property": "C66",
   "status": "partial",
   "theorems": [
    "Diffmah.C66_cdf_partial",
    "Diffmah.C66_cdf_does_not_reach_one",
    "Diffmah.C66_draw_range",
    "Diffmah.C66_population_range"
   ],
   "note": "The code's CDF for centrals is divided by t_0: it is non-decreasing and 0 at 0.1 t_0, but equals 1/t_0 at t_peak = t_0 (C66_cdf_partial), so it is not 1 unless t_0 = 1 (C66_cdf_does_not_reach_one)."
  },
  {
   "property": "C67",
   "status": "proved",
   "theorems": [
    "Diffmah.IO.C67_roundtrip",
    "Diffmah.IO.C67_non_ascii",
    "Diffmah.IO.C67_underscore",
    "Diffmah.IO.C67_keyword"
   ],
   "note": ""
  },
  {
   "property": "C68",
   "status": "partial",
   "theorems": [
    "Diffmah.IO.C68_all_columns",
    "Diffmah.IO.C68_requested_columns",
    "Diffmah.IO.C68_missing_column",
    "Diffmah.IO.C68_group_key",
    "Diffmah.IO.C68_negative_start",
    "Diffmah.IO.C68_chunks",
    "Diffmah.IO.C68_group_partial",
    "Diffmah.IO.C68_nested_group"
   ],
   "note": "Rows and columns proved for every file, key list and slice. With a dataset prefix the output keys are bare column names only for top-level groups (C68_group_partial); for a nested path 'a/b' the code keeps the last part of the path (C68_nested_group), so that clause is false of the code."
  },
  {
   "property": "C69",
   "status": "proved",
   "theorems": [
    "Diffmah.Loaders.C69_scatter",
    "Diffmah.Loaders.C69_load_per_rank"
   ],
   "note": ""
  },
  {
   "property": "C70",
   "status": "proved",
   "theorems": [
    "Diffmah.Loaders.C70_hacc",
    "Diffmah.Loaders.C70_bpl",
    "Diffmah.Loaders.C70_tng",
    "Diffmah.Loaders.C70_tng_accepts",
    "Diffmah.Loaders.C70_tng_negative_log",
    "Diffmah.Loaders.C70_published_tng",
    "Diffmah.Loaders.C70_published",
    "Diffmah.Loaders.C70_published_below_one"
   ],
   "note": "Sub-unit masses: C70_tng_negative_log and C70_published_below_one show the stated provisos are needed."
  },
  {
   "property": "C71",
   "status": "proved",
   "theorems": [
    "Diffmah.Scripts.C71_crash_safety",
    "Diffmah.Scripts.C71_collates",
    "Diffmah.Scripts.C71_missing_chunk",
    "Diffmah.Scripts.C71_space_in_directory"
   ],
   "note": "For an input directory with a space in its name the claim is false: C71_space_in_directory proves that an unrelated file is deleted and CalledProcessError raised. C71_missing_chunk: after a crash during deletion a re-run of the same range raises and changes nothing, so it does not finish the deletion."
  },
  {
   "property": "C72",
   "status": "proved",
   "theorems": [
    "Diffmah.Targets.C72_rescale",
    "Diffmah.Targets.C72_rescale_one",
    "Diffmah.Targets.C72_rescale_mismatch",
    "Diffmah.Targets.C72_rescale_empty",
    "Diffmah.Targets.C72_select"
   ],
   "note": ""
  },
  {
   "property": "C73",
   "status": "partial",
   "theorems": [
    "Diffmah.Targets.C73_dropped_partial",
    "Diffmah.Targets.C73_skipped_halo_kept"
   ],
   "note": "False of the code: the fitter stores loss -99 for a skipped halo and the reader drops rows with loss -1, so every skipped halo is kept (C73_skipped_halo_kept). C73_dropped_partial states exactly which rows are dropped. Missing: exclusion of skipped haloes."
  },
  {
   "property": "C74",
   "status": "partial",
   "theorems": [
    "Diffmah.Scripts.C74_explicit_range_partial",
    "Diffmah.Scripts.C74_last_subvolume_missed",
    "Diffmah.Scripts.C74_discovery_default_partial",
    "Diffmah.Scripts.C74_discovery_beyond",
    "Diffmah.Scripts.C74_test_flag",
    "Diffmah.Scripts.C74_bpl"
   ],
   "note": "Negation proved for the default end of range: with the default iend = -1 and an explicit istart the last subvolume of the LastJourney selection is never fitted (C74_last_subvolume_missed). Proved for explicit ranges inside the simulation, for the Discovery default up to 96 subvolumes, and for BPL, whose default selects subvolume 0 only; any non-empty value of -test switches the test mode on (C74_test_flag)."
  },
  {
   "property": "C75",
   "status": "partial",
   "theorems": [
    "Diffmah.Targets.C75_times",
    "Diffmah.Targets.C75_tabulate_empty",
    "Diffmah.Targets.C75_tabulate_typeError",
    "Diffmah.Targets.C75_tabulate_partial",
    "Diffmah.Targets.C75_write_no_targets",
    "Diffmah.Targets.C75_write_typeError",
    "Diffmah.Targets.C75_write_partial",
    "Diffmah.Targets.C75_generate_nothing",
    "Diffmah.Targets.C75_load_empty",
    "Diffmah.Targets.C75_load_typeError",
    "Diffmah.Targets.C75_load_partial",
    "Diffmah.Targets.C75_load_fixed_directory"
   ],
   "note": "False of the code: mah_halopop takes three arguments and is called with four, and the named tuple is made from four of five columns. No call ever returns a target (C75_*_empty, C75_generate_nothing, C75_*_typeError); the samples are counted in a fixed directory (C75_load_fixed_directory). The _partial theorems state the only successful outcomes. Missing: targets for rows that pass the cuts."
  },
  {
   "property": "C76",
   "status": "partial",
   "theorems": [
    "Diffmah.Loaders.C76_tiling_partial",
    "Diffmah.Loaders.C76_idle_ranks"
   ],
   "note": "Proved whenever there are at least as many haloes as ranks; otherwise the surplus ranks raise IndexError (C76_idle_ranks), so the full statement is false of the code."
  },
  {
   "property": "C77",
   "status": "proved",
   "theorems": [
    "Diffmah.Scripts.C77_unique_outputs",
    "Diffmah.Scripts.C77_unique_rank_files",
    "Diffmah.Scripts.C77_cleanup",
    "Diffmah.Scripts.C77_agreement",
    "Diffmah.Scripts.C77_order",
    "Diffmah.Scripts.C77_other_chunk_counts"
   ],
   "note": "Chunk counts other than the 20 that the collating script assumes give names it does not look for (C77_other_chunk_counts)."
  },
  {
   "property": "C78",
   "status": "proved",
   "theorems": [
    "Diffmah.C78_sig_slope"
   ],
   "note": ""
  },
  {
   "property": "C79",
   "status": "proved",
   "theorems": [
    "Diffmah.Fit.C79_fit_loss_is_distance_of_best_fit",
    "Diffmah.Fit.C79_reported_loss"
   ],
   "note": ""
  },
  {
   "property": "C80",
   "status": "proved",
   "theorems": [
    "Diffmah.Fit.C80_degenerate_settings"
   ],
   "note": ""
  },
  {
   "property": "C81",
   "status": "proved",
   "theorems": [
    "Diffmah.Measure.C81_moments_at_nodes"
   ],
   "note": ""
  },
  {
   "property": "C82",
   "status": "proved",
   "theorems": [
    "Diffmah.Measure.C82_scale_free"
   ],
   "note": ""
  },
  {
   "property": "C83",
   "status": "proved",
   "theorems": [
    "Diffmah.C83_scatter_is_normal"
   ],
   "note": ""
  },
  {
   "property": "C84",
   "status": "proved",
   "theorems": [
    "Diffmah.C84_early_depends",
    "Diffmah.C84_late_depends",
    "Diffmah.C84_mean_early",
    "Diffmah.C84_mean_late"
   ],
   "note": ""
  },
  {
   "property": "C85",
   "status": "proved",
   "theorems": [
    "Diffmah.Scripts.C85_too_few",
    "Diffmah.Scripts.C85_success",
    "Diffmah.Scripts.C85_crash_safety"
   ],
   "note": ""
  },
  {
   "property": "C86",
   "status": "partial",
   "theorems": [
    "Diffmah.Scripts.C86_every_schedule",
    "Diffmah.Scripts.C86_before_barrier",
    "Diffmah.Scripts.C86_chunk_is_serial_partial"
   ],
   "note": "Proved when every rank has at least two haloes; with fewer the run raises (C44_too_few_haloes, C85_too_few)."
  },
  {
   "property": "C87",
   "status": "partial",
   "theorems": [
    "Diffmah.Scripts.C87_progress",
    "Diffmah.Scripts.C87_blocked",
    "Diffmah.Scripts.C87_crash_safety",
    "Diffmah.Scripts.C87_restart",
    "Diffmah.Scripts.C87_end_to_end_partial"
   ],
   "note": "Proved when every chunk has at least two haloes per rank. Otherwise it is false of the code: the run never comes to its end (C87_blocked)."
  },
  {
   "property": "C88",
   "status": "proved",
   "theorems": [
    "Diffmah.CompLoss.C88_logm0",
    "Diffmah.CompLoss.C88_utp",
    "Diffmah.CompLoss.C88_tp_cens",
    "Diffmah.CompLoss.C88_multimass",
    "Diffmah.CompLoss.C88_flex",
    "Diffmah.CompLoss.C88_early_index",
    "Diffmah.CompLoss.C88_logtc",
    "Diffmah.CompLoss.C88_early_index_gradient",
    "Diffmah.CompLoss.C88_logtc_gradient"
   ],
   "note": ""
  },
  {
   "property": "C89",
   "status": "partial",
   "theorems": [
    "Diffmah.CompLoss.C89_t_peak_cens_fitter_partial",
    "Diffmah.CompLoss.C89_t_peak_fitter_partial",
    "Diffmah.CompLoss.C89_fit_global_never_works"
   ],
   "note": "True of t_peak_fitter and t_peak_cens_fitter (the _partial theorems). False of fit_global_c0_model and fit_global_c1_model in all eight copies: C89_fit_global_never_works shows that they raise AttributeError for every input, because the loss reads attributes of the plain array that the minimiser passes. Missing: bounds of what the logm0 fitters return, since they return nothing."
  },
  {
   "property": "C90",
   "status": "proved",
   "theorems": [
    "Diffmah.Samples.C90_success",
    "Diffmah.Samples.C90_crash_safety"
   ],
   "note": ""
  },
  {
   "property": "C91",
   "status": "partial",
   "theorems": [
    "Diffmah.Samples.C91_output_exists",
    "Diffmah.Samples.C91_rerun_after_crash",
    "Diffmah.Samples.C91_off_grid_lost",
    "Diffmah.Samples.C91_deletes_other_files",
    "Diffmah.Samples.C91_nothing_lost_partial"
   ],
   "note": "False of the code: the grid used for collating ends at a constant time, that of the samples at the last time of the simulation, so samples of bins whose names differ are deleted without being collated (C91_off_grid_lost); other files called subvol_<digit>... are deleted too (C91_deletes_other_files); after a crash a second run raises and changes nothing (C91_rerun_after_crash, C91_output_exists). C91_nothing_lost_partial: nothing is lost if all temporary files are samples of bins of the grid. Missing: the other directories, and running again."
  },
  {
   "property": "C92",
   "status": "partial",
   "theorems": [
    "Diffmah.Samples.C92_write",
    "Diffmah.Samples.C92_end_to_end_partial",
    "Diffmah.Samples.C92_nothing"
   ],
   "note": "C92_write and C92_end_to_end_partial hold for whatever well-formed samples are produced. With the code that produces them the loop always raises before it writes anything (C92_nothing, from C75). Missing: that samples are produced."
  },
  {
   "property": "C93",
   "status": "proved",
   "theorems": [
    "Diffmah.Samples.C93_read_back",
    "Diffmah.Samples.C93_different",
    "Diffmah.Samples.C93_grid",
    "Diffmah.Samples.C93_collated_name",
    "Diffmah.Samples.C93_directories"
   ],
   "note": ""
  },
  {
   "property": "C94",
   "status": "proved",
   "theorems": [
    "Diffmah.Catalogue.C94_tng",
    "Diffmah.Catalogue.C94_tng_progress",
    "Diffmah.Catalogue.C94_tng_too_few",
    "Diffmah.Catalogue.C94_tng_crash_safety",
    "Diffmah.Catalogue.C94_bpl",
    "Diffmah.Catalogue.C94_bpl_progress",
    "Diffmah.Catalogue.C94_bpl_too_few",
    "Diffmah.Catalogue.C94_bpl_crash_safety",
    "Diffmah.Catalogue.C94_galacticus",
    "Diffmah.Catalogue.C94_galacticus_progress",
    "Diffmah.Catalogue.C94_galacticus_too_few",
    "Diffmah.Catalogue.C94_galacticus_crash_safety"
   ],
   "note": ""
  },
  {
   "property": "C95",
   "status": "proved",
   "theorems": [
    "Diffmah.Catalogue.C95_latest_time",
    "Diffmah.Catalogue.C95_prepared",
    "Diffmah.Catalogue.C95_extended"
   ],
   "note": ""
  },
  {
   "property": "C96",
   "status": "proved",
   "theorems": [
    "Diffmah.Catalogue.C96_discovery_fails"
   ],
   "note": "The script violates its purpose for every input; the property states the failure and that it harms no other file."
  },
  {
   "property": "C97",
   "status": "partial",
   "theorems": [
    "Diffmah.Catalogue.C97_output_deleted",
    "Diffmah.Catalogue.C97_other_runs",
    "Diffmah.Catalogue.C97_bpl_test",
    "Diffmah.Catalogue.C97_test_option",
    "Diffmah.Catalogue.C97_test_off_partial",
    "Diffmah.Catalogue.C97_galacticus_test_option",
    "Diffmah.Catalogue.C97_galacticus_test_off_partial"
   ],
   "note": "Holds only without the option (C97_test_off_partial). Violations proved: C97_test_option (any non-empty text, also False, switches test mode on), C97_bpl_test (test mode raises IndexError with fewer than five haloes per rank), C97_output_deleted (an output named like a temporary file is deleted), C97_other_runs (temporary files of other runs in the directory are deleted)."
  },
  {
   "property": "C98",
   "status": "proved",
   "theorems": [
    "Diffmah.F32.C98_bounded_params",
    "Diffmah.F32.C98_saturates"
   ],
   "note": ""
  },
  {
   "property": "C99",
   "status": "proved",
   "theorems": [
    "Diffmah.F32.C99_frozen_after_peak",
    "Diffmah.F32.C99_independent_before_peak",
    "Diffmah.F32.C99_mass_today"
   ],
   "note": ""
  },
  {
   "property": "C100",
   "status": "proved",
   "theorems": [
    "Diffmah.F32.C100_log_mass_accurate",
    "Diffmah.F32.C100_never_decreases_much"
   ],
   "note": ""
  },
  {
   "property": "C101",
   "status": "proved",
   "theorems": [
    "Diffmah.PopGrad.C101_normal_rules",
    "Diffmah.PopGrad.C101_loss_gradient",
    "Diffmah.PopGrad.C101_sats",
    "Diffmah.PopGrad.C101_cens",
    "Diffmah.PopGrad.C101_censat",
    "Diffmah.PopGrad.C101_censat_u_params"
   ],
   "note": ""
  },
  {
   "property": "C102",
   "status": "partial",
   "theorems": [
    "Diffmah.PopGrad.C102_draws_half",
    "Diffmah.PopGrad.C102_upper",
    "Diffmah.PopGrad.C102_covariance_partial",
    "Diffmah.PopGrad.C102_zero_correlation"
   ],
   "note": "The full statement is false where a correlation is exactly zero: C102_zero_correlation is the refutation. C102_draws_half shows the consequence: the automatic derivative of every drawn parameter is exactly half of its derivative. C102_covariance_partial excludes that case; C102_upper needs no exclusion."
  },
  {
   "property": "C103",
   "status": "proved",
   "theorems": [
    "Diffmah.PopGrad.C103_unused",
    "Diffmah.PopGrad.C103_gradient_zero",
    "Diffmah.PopGrad.C103_returned_zero"
   ],
   "note": ""
  },
  {
   "property": "C104",
   "status": "proved",
   "theorems": [
    "Diffmah.Fit.C104_trajectory",
    "Diffmah.Fit.C104_reported",
    "Diffmah.Fit.C104_fallback"
   ],
   "note": ""
  },
  {
   "property": "C105",
   "status": "proved",
   "theorems": [
    "Diffmah.Fit.C105_trajectory",
    "Diffmah.Fit.C105_step",
    "Diffmah.Fit.C105_reported"
   ],
   "note": ""
  },
  {
   "property": "C106",
   "status": "proved",
   "theorems": [
    "Diffmah.C106_scatter_law",
    "Diffmah.C106_quantiles",
    "Diffmah.C106_medians"
   ],
   "note": ""
  },
  {
   "property": "C107",
   "status": "proved",
   "theorems": [
    "Diffmah.C107_early_probability",
    "Diffmah.C107_population_law"
   ],
   "note": ""
  },
  {
   "property": "C108",
   "status": "proved",
   "theorems": [
    "Diffmah.C108_centrals",
    "Diffmah.C108_satellites",
    "Diffmah.C108_halos"
   ],
   "note": ""
  },
  {
   "property": "C109",
   "status": "proved",
   "theorems": [
    "Diffmah.C109_expected_moments",
    "Diffmah.C109_expected_variance",
    "Diffmah.C109_agreement"
   ],
   "note": ""
  },
  {
   "property": "C110",
   "status": "proved",
   "theorems": [
    "Diffmah.C110_one_halo",
    "Diffmah.C110_population"
   ],
   "note": ""
  },
  {
   "property": "C111",
   "status": "proved",
   "theorems": [
    "Diffmah.C111_density",
    "Diffmah.C111_satellites",
    "Diffmah.C111_centrals"
   ],
   "note": ""
  },
  {
   "property": "C112",
   "status": "proved",
   "theorems": [
    "Diffmah.C112_epoch",
    "Diffmah.C112_epoch_made",
    "Diffmah.C112_residuals",
    "Diffmah.C112_residuals_made",
    "Diffmah.C112_residual_loss",
    "Diffmah.C112_files"
   ],
   "note": ""
  },
  {
   "property": "C113",
   "status": "partial",
   "theorems": [
    "Diffmah.C113_late_partial",
    "Diffmah.C113_early_partial",
    "Diffmah.C113_early_dependent"
   ],
   "note": "Proved for the late draw. False of the code for the early draw, because its normal numbers come from the key that also draws the peak time: C113_early_dependent gives, for every halo, central or satellite, a random stream that keeps all that JAX promises and violates it. C113_early_partial: the law of the early scatter, and independence if the two kinds of numbers of one key were independent."
  },
  {
   "property": "C114",
   "status": "proved",
   "theorems": [
    "Diffmah.C114_independent",
    "Diffmah.C114_averages",
    "Diffmah.C114_early_fraction"
   ],
   "note": ""
  },
  {
   "property": "C115",
   "status": "proved",
   "theorems": [
    "Diffmah.C115_formation_time",
    "Diffmah.C115_ordered",
    "Diffmah.C115_scale_free"
   ],
   "note": ""
  },
  {
   "property": "C116",
   "status": "proved",
   "theorems": [
    "Diffmah.C116_early_index",
    "Diffmah.C116_late_index",
    "Diffmah.C116_logtc",
    "Diffmah.C116_later_formation"
   ],
   "note": ""
  },
  {
   "property": "C117",
   "status": "proved",
   "theorems": [
    "Diffmah.C117_any_period",
    "Diffmah.C117_history_determines_parameters",
    "Diffmah.C117_unbounded",
    "Diffmah.C117_equal_indices"
   ],
   "note": ""
  },
  {
   "property": "C118",
   "status": "proved",
   "theorems": [
    "Diffmah.C118_six_digits_suffice",
    "Diffmah.Text.C118_history_from_file",
    "Diffmah.C118_misfit_from_file"
   ],
   "note": ""
  },
  {
   "property": "C119",
   "status": "proved",
   "theorems": [
    "Diffmah.Fit.C119_inferred_peak",
    "Diffmah.Fit.C119_own_parameters_fit_exactly",
    "Diffmah.Fit.C119_known_peak"
   ],
   "note": ""
  },
  {
   "property": "C120",
   "status": "proved",
   "theorems": [
    "Diffmah.CompLoss.C120_utp",
    "Diffmah.CompLoss.C120_tp_cens",
    "Diffmah.CompLoss.C120_flex",
    "Diffmah.CompLoss.C120_logm0_c0",
    "Diffmah.CompLoss.C120_logm0_c1",
    "Diffmah.CompLoss.C120_multimass"
   ],
   "note": ""
  },
  {
   "property": "C121",
   "status": "partial",
   "theorems": [
    "Diffmah.F32.C121_in_range_partial",
    "Diffmah.F32.C121_escapes"
   ],
   "note": ""
  },
  {
   "property": "C122",
   "status": "proved",
   "theorems": [
    "Diffmah.F32.C122_same_function",
    "Diffmah.F32.C122_zero_after_peak",
    "Diffmah.F32.C122_rate_accurate"
   ],
   "note": ""
  },
  {
   "property": "C123",
   "status": "proved",
   "theorems": [
    "Diffmah.F32.C123_histories",
    "Diffmah.F32.C123_same_function",
    "Diffmah.F32.C123_loss_finite",
    "Diffmah.F32.C123_small_loss_close_fit",
    "Diffmah.F32.C123_close_fit_small_loss"
   ],
   "note": ""
  },
  {
   "property": "C124",
   "status": "proved",
   "theorems": [
    "Diffmah.F32.C124_same_function",
    "Diffmah.F32.C124_gradient_finite",
    "Diffmah.F32.C124_exact_fit_stationary",
    "Diffmah.F32.C124_saturated"
   ],
   "note": ""
  },
  {
   "property": "C125",
   "status": "proved",
   "theorems": [
    "Diffmah.F32.C125_step_length",
    "Diffmah.F32.C125_adam_succeeds",
    "Diffmah.F32.C125_fallback_succeeds",
    "Diffmah.F32.C125_stationary_start",
    "Diffmah.F32.C125_exact_start_flagged",
    "Diffmah.F32.C125_saturated_start_returned"
   ],
   "note": ""
  },
  {
   "property": "C126",
   "status": "proved",
   "theorems": [
    "Diffmah.F32.C126_halo_round_trip",
    "Diffmah.F32.C126_population_round_trip"
   ],
   "note": ""
  },
  {
   "property": "C127",
   "status": "proved",
   "theorems": [
    "Diffmah.F32.C127_mean_accurate",
    "Diffmah.F32.C127_mean_valid",
    "Diffmah.F32.C127_monte_carlo",
    "Diffmah.F32.C127_from_unbounded"
   ],
   "note": ""
  },
  {
   "property": "C128",
   "status": "proved",
   "theorems": [
    "Diffmah.F32.C128_covariance",
    "Diffmah.F32.C128_monte_carlo"
   ],
   "note": ""
  },
  {
   "property": "C129",
   "status": "proved",
   "theorems": [
    "Diffmah.F32.C129_peak_times",
    "Diffmah.F32.C129_monte_carlo"
   ],
   "note": ""
  },
  {
   "property": "C130",
   "status": "proved",
   "theorems": [
    "Diffmah.F32.C130_moments_accurate",
    "Diffmah.F32.C130_loss_finite",
    "Diffmah.F32.C130_cens_loss_of_any_step",
    "Diffmah.F32.C130_censat_loss_of_any_step"
   ],
   "note": ""
  },
  {
   "property": "C131",
   "status": "proved",
   "theorems": [
    "Diffmah.F32.C131_catalogue",
    "Diffmah.F32.C131_parameters",
    "Diffmah.F32.C131_same_function"
   ],
   "note": ""
  },
  {
   "property": "C132",
   "status": "proved",
   "theorems": [
    "Diffmah.C132_directional",
    "Diffmah.C132_unbounded",
    "Diffmah.C132_gradient",
    "Diffmah.C132_no_gradient_after_peak"
   ],
   "note": ""
  },
  {
   "property": "C133",
   "status": "proved",
   "theorems": [
    "Diffmah.C133_history",
    "Diffmah.Fit.C133_loss",
    "Diffmah.Fit.C133_fit_target",
    "Diffmah.Fit.C133_fit_peak"
   ],
   "note": ""
  },
  {
   "property": "C134",
   "status": "proved",
   "theorems": [
    "Diffmah.Pop.C134_frac_early",
    "Diffmah.Pop.C134_frac_peaked",
    "Diffmah.Pop.C134_sats",
    "Diffmah.Pop.C134_old_cens",
    "Diffmah.Pop.C134_early_index_early",
    "Diffmah.Pop.C134_early_index_late",
    "Diffmah.Pop.C134_early_index_pop",
    "Diffmah.Pop.C134_late_index_early",
    "Diffmah.Pop.C134_late_index_late",
    "Diffmah.Pop.C134_logtc_early",
    "Diffmah.Pop.C134_logtc_late",
    "Diffmah.Pop.C134_logm0_early",
    "Diffmah.Pop.C134_logm0_late",
    "Diffmah.Pop.C134_logm0_early_sats",
    "Diffmah.Pop.C134_logm0_late_sats",
    "Diffmah.Pop.C134_ftpt0",
    "Diffmah.Pop.C134_scatter",
    "Diffmah.Pop.C134_population"
   ],
   "note": ""
  },
  {
   "property": "C135",
   "status": "proved",
   "theorems": [
    "Diffmah.Fit.C135_at_target",
    "Diffmah.Fit.C135_worst_point",
    "Diffmah.Fit.C135_between_targets",
    "Diffmah.Fit.C135_fit"
   ],
   "note": ""
  },
  {
   "property": "C136",
   "status": "proved",
   "theorems": [
    "Diffmah.C136_early_power_law",
    "Diffmah.C136_late_power_law",
    "Diffmah.C136_half_way",
    "Diffmah.C136_early_limit",
    "Diffmah.C136_early_slope",
    "Diffmah.C136_slope_today",
    "Diffmah.C136_starts_from_nothing",
    "Diffmah.C136_initial_rate"
   ],
   "note": ""
  },
  {
   "property": "C137",
   "status": "proved",
   "theorems": [
    "Diffmah.Fit.C137_loss",
    "Diffmah.Fit.C137_target",
    "Diffmah.Fit.C137_fit"
   ],
   "note": ""
  },
  {
   "property": "C138",
   "status": "proved",
   "theorems": [
    "Diffmah.C138_mean_never_decreases",
    "Diffmah.C138_frozen",
    "Diffmah.C138_drawn"
   ],
   "note": ""
  },
  {
   "property": "C139",
   "status": "proved",
   "theorems": [
    "Diffmah.C139_six_times",
    "Diffmah.C139_unbounded",
    "Diffmah.Fit.C139_fit_has_one_solution",
    "Diffmah.Fit.C139_fit_known_peak",
    "Diffmah.Fit.C139_zero_loss_iff_recovered"
   ],
   "note": ""
  },
  {
   "property": "C140",
   "status": "proved",
   "theorems": [
    "Diffmah.C140_today_and_three",
    "Diffmah.C140_two_are_not_enough",
    "Diffmah.Fit.C140_every_fit_has_one_solution",
    "Diffmah.Fit.C140_zero_loss_iff_recovered"
   ],
   "note": ""
  },
  {
   "property": "C141",
   "status": "proved",
   "theorems": [
    "Diffmah.C141_masses",
    "Diffmah.Fit.C141_fit"
   ],
   "note": ""
  },
  {
   "property": "C142",
   "status": "proved",
   "theorems": [
    "Diffmah.C142_summed_rates",
    "Diffmah.C142_linspace"
   ],
   "note": ""
  },
  {
   "property": "C143",
   "status": "proved",
   "theorems": [
    "Diffmah.Pop.C143_frac_early",
    "Diffmah.Pop.C143_frac_peaked",
    "Diffmah.Pop.C143_sats_loc",
    "Diffmah.Pop.C143_sats_scale",
    "Diffmah.Pop.C143_early_index",
    "Diffmah.Pop.C143_late_index",
    "Diffmah.Pop.C143_late_index_default",
    "Diffmah.Pop.C143_logtc",
    "Diffmah.Pop.C143_scatter",
    "Diffmah.Pop.C143_ftpt0",
    "Diffmah.Pop.C143_logm0_t_obs",
    "Diffmah.Pop.C143_logm0_t_peak",
    "Diffmah.Pop.C143_covariance"
   ],
   "note": ""
  },
  {
   "property": "C144",
   "status": "proved",
   "theorems": [
    "Diffmah.C144_bounds",
    "Diffmah.C144_overshoot",
    "Diffmah.C144_crossing",
    "Diffmah.C144_growth",
    "Diffmah.C144_doubling",
    "Diffmah.C144_formation"
   ],
   "note": ""
  },
  {
   "property": "C145",
   "status": "proved",
   "theorems": [
    "Diffmah.Fit.C145_only_used_snapshots",
    "Diffmah.Fit.C145_early_snapshots",
    "Diffmah.Fit.C145_excluded_snapshot_as_peak"
   ],
   "note": ""
  },
  {
   "property": "C146",
   "status": "proved",
   "theorems": [
    "Diffmah.C146_outliers",
    "Diffmah.C146_within_bulk"
   ],
   "note": ""
  },
  {
   "property": "C147",
   "status": "proved",
   "theorems": [
    "Diffmah.Fit.C147_mean_residual",
    "Diffmah.Fit.C147_best_mass",
    "Diffmah.Fit.C147_closed_form"
   ],
   "note": ""
  },
  {
   "property": "C148",
   "status": "proved",
   "theorems": [
    "Diffmah.Fit.C148_stationary_excess",
    "Diffmah.Fit.C148_stationary_is_best",
    "Diffmah.Fit.C148_unique"
   ],
   "note": ""
  }
 ]
}