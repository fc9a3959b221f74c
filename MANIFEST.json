{
 "claims": [
  {
   "property": "C01",
   "status": "proved",
   "theorems": [
    "Verif.C01_size_gate"
   ],
   "note": ""
  },
  {
   "property": "C02",
   "status": "proved",
   "theorems": [
    "Verif.C02_value_gate"
   ],
   "note": ""
  },
  {
   "property": "C03",
   "status": "proved",
   "theorems": [
    "Verif.C03_timestamp_order"
   ],
   "note": ""
  },
  {
   "property": "C04",
   "status": "proved",
   "theorems": [
    "Verif.C04_grid_alignment",
    "Verif.C04_near"
   ],
   "note": ""
  },
  {
   "property": "C05",
   "status": "proved",
   "theorems": [
    "Verif.C05_index_map",
    "Verif.C05_near",
    "Verif.C05_inexact",
    "Verif.C05_index_strictly_increasing",
    "Verif.C05_first_invalid",
    "Verif.C05_first_invalid_calendar",
    "Verif.C05_first_invalid_calendar_not_first"
   ],
   "note": "defect: exactness refuted for fractional seconds and beyond 2116 (C05_inexact); exact on whole seconds, within 20 microseconds otherwise"
  },
  {
   "property": "C06",
   "status": "proved",
   "theorems": [
    "Verif.C06_calendar_difference"
   ],
   "note": ""
  },
  {
   "property": "C07",
   "status": "proved",
   "theorems": [
    "Verif.C07_parameter_gates",
    "Verif.C07_ratio_number",
    "Verif.C07_accepts"
   ],
   "note": ""
  },
  {
   "property": "C08",
   "status": "proved",
   "theorems": [
    "Verif.C08_parameter_rejection",
    "Verif.C08_never_request_error",
    "Verif.C08_unhashable",
    "Verif.C08_series_rejection"
   ],
   "note": "defect: intended property refuted. Proved: the actual behaviour."
  },
  {
   "property": "C09",
   "status": "proved",
   "theorems": [
    "Verif.C09_second_call_fails",
    "Verif.C09_answered_then_fails"
   ],
   "note": "defect: intended property refuted. Proved: every reuse fails."
  },
  {
   "property": "C10",
   "status": "proved",
   "theorems": [
    "Verif.C10_mode_fixed",
    "Verif.C10_mode_latched",
    "Verif.C10_request_mode_ignored"
   ],
   "note": ""
  },
  {
   "property": "C11",
   "status": "proved",
   "theorems": [
    "Verif.C11_history_free"
   ],
   "note": ""
  },
  {
   "property": "C12",
   "status": "proved",
   "theorems": [
    "Verif.C12_entire_items"
   ],
   "note": "imputeMode='fixed' on a series with gaps is outside the quantifier (not modelled)."
  },
  {
   "property": "C13",
   "status": "proved",
   "theorems": [
    "Verif.C13_latest_item"
   ],
   "note": "imputeMode='fixed' on a series with gaps is outside the quantifier (not modelled)."
  },
  {
   "property": "C14",
   "status": "proved",
   "theorems": [
    "Verif.C14_flags_consistent"
   ],
   "note": "imputeMode='fixed' on a series with gaps is outside the quantifier (not modelled)."
  },
  {
   "property": "C15",
   "status": "proved",
   "theorems": [
    "Verif.C15_direction_entire",
    "Verif.C15_direction",
    "Verif.C15_direction_regular",
    "Verif.C15_wrong_direction"
   ],
   "note": "intended property holds in ENTIRE mode (C15_direction_entire) and, for regular first magnitudes, in every mode (C15_direction_regular). C15_direction: what holds in every mode without that assumption. C15_wrong_direction: a LATEST request where -100 is reported as positive anomaly with expected value 0, for a spectral residual transform that obeys the assumed laws (length and nonnegativity); the transform itself (FFT, log, exp) is not modelled, so this shows that the guard in the code does not exclude the case, not that a particular input reaches it."
  },
  {
   "property": "C16",
   "status": "proved",
   "theorems": [
    "Verif.C16_band"
   ],
   "note": "imputeMode='fixed' on a series with gaps is outside the quantifier (not modelled)."
  },
  {
   "property": "C17",
   "status": "proved",
   "theorems": [
    "Verif.C17_margins_nonneg"
   ],
   "note": "imputeMode='fixed' on a series with gaps is outside the quantifier (not modelled)."
  },
  {
   "property": "C18",
   "status": "proved",
   "theorems": [
    "Verif.C18_sensitivity_monotone"
   ],
   "note": "imputeMode='fixed' on a series with gaps is outside the quantifier (not modelled)."
  },
  {
   "property": "C19",
   "status": "proved",
   "theorems": [
    "Verif.C19_full_sensitivity"
   ],
   "note": "imputeMode='fixed' on a series with gaps is outside the quantifier (not modelled)."
  },
  {
   "property": "C20",
   "status": "proved",
   "theorems": [
    "Verif.C20_second_budget",
    "Verif.C20_count_bound",
    "Verif.C20_total_bound_fails"
   ],
   "note": "defect: the ratio is per direction, and the budget of the second pass can grow by one through rounding. imputeMode='fixed' on a series with gaps is outside the quantifier (not modelled)."
  },
  {
   "property": "C21",
   "status": "proved",
   "theorems": [
    "Verif.C21_near_points"
   ],
   "note": "imputeMode='fixed' on a series with gaps is outside the quantifier (not modelled)."
  },
  {
   "property": "C22",
   "status": "proved",
   "theorems": [
    "Verif.C22_requested_period",
    "Verif.C22_detected_period"
   ],
   "note": "imputeMode='fixed' on a series with gaps is outside the quantifier (not modelled)."
  },
  {
   "property": "C23",
   "status": "proved",
   "theorems": [
    "Verif.C23_suggested_window"
   ],
   "note": "imputeMode='fixed' on a series with gaps is outside the quantifier (not modelled)."
  },
  {
   "property": "C24",
   "status": "proved",
   "theorems": [
    "Verif.C24_explicit_detector_fails"
   ],
   "note": "defect: intended property refuted. Proved: the actual behaviour."
  },
  {
   "property": "C25",
   "status": "proved",
   "theorems": [
    "Verif.C25_imputation_keeps_observed"
   ],
   "note": ""
  },
  {
   "property": "C26",
   "status": "proved",
   "theorems": [
    "Verif.C26_imputation_values"
   ],
   "note": ""
  },
  {
   "property": "C27",
   "status": "proved",
   "theorems": [
    "Verif.C27_auto_within_observed"
   ],
   "note": ""
  },
  {
   "property": "C28",
   "status": "proved",
   "theorems": [
    "Verif.C28_sparse_rejected",
    "Verif.C28_sparse_unseasonal"
   ],
   "note": ""
  },
  {
   "property": "C29",
   "status": "proved",
   "theorems": [
    "Verif.C29_cap_never_blocks",
    "Verif.C29_seasonal_series_full"
   ],
   "note": ""
  },
  {
   "property": "C30",
   "status": "proved",
   "theorems": [
    "Verif.C30_fixed_value_ignored",
    "Verif.C30_fixed_gaps",
    "Verif.C30_fixed_constant_lost",
    "Verif.C30_zero_not_applied",
    "Verif.C30_constant"
   ],
   "note": "defect: intended property refuted. C30_fixed_value_ignored: outcomes of requests that differ only in imputeFixedValue agree, in all cases, including those where the series then contains None (the libraries' reaction to None is left to the oracle Wild, which sees only what the code passes on). C30_constant: what imputeMode='zero' and fillUpMode='fixed' do."
  },
  {
   "property": "C31",
   "status": "proved",
   "theorems": [
    "Verif.C31_two_periods"
   ],
   "note": ""
  },
  {
   "property": "C32",
   "status": "proved",
   "theorems": [
    "Verif.C32_units_bounded",
    "Verif.C32_margin_computed",
    "Verif.C32_margins_computed"
   ],
   "note": ""
  },
  {
   "property": "C33",
   "status": "proved",
   "theorems": [
    "Verif.C33_score_range",
    "Verif.C33_score_zero",
    "Verif.C33_score_monotone",
    "Verif.C33_score_scale",
    "Verif.C33_severity"
   ],
   "note": ""
  },
  {
   "property": "C34",
   "status": "proved",
   "theorems": [
    "Verif.C34_quick_select",
    "Verif.C34_terminates",
    "Verif.C34_fast_median",
    "Verif.C34_random_independent"
   ],
   "note": ""
  },
  {
   "property": "C35",
   "status": "proved",
   "theorems": [
    "Verif.C35_short",
    "Verif.C35_moving_median",
    "Verif.C35_two_end",
    "Verif.C35_two_end_rounding"
   ],
   "note": "defect: intended property refuted at the end of the array for data that is not float32 (C35_two_end_rounding)."
  },
  {
   "property": "C36",
   "status": "proved",
   "theorems": [
    "Verif.C36_fast_mad"
   ],
   "note": ""
  },
  {
   "property": "C37",
   "status": "proved",
   "theorems": [
    "Verif.C37_generalized_esd",
    "Verif.C37_dynamic_threshold",
    "Verif.C37_latest"
   ],
   "note": ""
  },
  {
   "property": "C38",
   "status": "proved",
   "theorems": [
    "Verif.C38_fusion",
    "Verif.C38_detect",
    "Verif.C38_two_detectors",
    "Verif.C38_three_detectors"
   ],
   "note": "defect: intended preference refuted for three detectors (C38_three_detectors). Proved: the actual priority order."
  },
  {
   "property": "C39",
   "status": "proved",
   "theorems": [
    "Verif.C39_average",
    "Verif.C39_padded"
   ],
   "note": ""
  },
  {
   "property": "C40",
   "status": "proved",
   "theorems": [
    "Verif.C40_seasons",
    "Verif.C40_error",
    "Verif.C40_nonneg",
    "Verif.C40_max_gcv",
    "Verif.C40_candidates"
   ],
   "note": "Exact arithmetic on float32 inputs; the code accumulates in float32."
  },
  {
   "property": "C41",
   "status": "proved",
   "theorems": [
    "Verif.C41_correlogram",
    "Verif.C41_candidates"
   ],
   "note": ""
  },
  {
   "property": "C42",
   "status": "proved",
   "theorems": [
    "Verif.C42_spectrum_period",
    "Verif.C42_refinement_terminates"
   ],
   "note": ""
  },
  {
   "property": "C43",
   "status": "proved",
   "theorems": [
    "Verif.C43_despike",
    "Verif.C43_not_mad",
    "Verif.C43_inverted"
   ],
   "note": "defect: intended property refuted. Proved: the actual behaviour."
  },
  {
   "property": "C44",
   "status": "proved",
   "theorems": [
    "Verif.C44_length",
    "Verif.C44_differences",
    "Verif.C44_inverse",
    "Verif.C44_order"
   ],
   "note": ""
  },
  {
   "property": "C45",
   "status": "proved",
   "theorems": [
    "Verif.C45_second_pass",
    "Verif.C45_keeps"
   ],
   "note": ""
  },
  {
   "property": "C46",
   "status": "proved",
   "theorems": [
    "Verif.C46_fill",
    "Verif.C46_accepts",
    "Verif.C46_parameters",
    "Verif.C46_names"
   ],
   "note": "Infinite cells are not modelled. C46_fill: content; C46_names: distinct names; C46_accepts: totality and DataFormatError; C46_parameters: method names and fill value."
  },
  {
   "property": "C47",
   "status": "proved",
   "theorems": [
    "Verif.C47_process",
    "Verif.C47_columns"
   ],
   "note": "C47_process: rows and columns, preprocessing. C47_columns: fit and predict, columns. Row order does matter for fit and predict (see C48)."
  },
  {
   "property": "C48",
   "status": "proved",
   "theorems": [
    "Verif.C48_labels",
    "Verif.C48_sorted",
    "Verif.C48_wrong_label"
   ],
   "note": "defect: intended property refuted (C48_wrong_label); proved for tables in label order (C48_sorted); C48_labels states the actual labelling"
  },
  {
   "property": "C49",
   "status": "proved",
   "theorems": [
    "Verif.C49_predicted",
    "Verif.C49_count",
    "Verif.C49_minimum"
   ],
   "note": ""
  },
  {
   "property": "C50",
   "status": "proved",
   "theorems": [
    "Verif.C50_samples",
    "Verif.C50_inference"
   ],
   "note": ""
  },
  {
   "property": "C51",
   "status": "proved",
   "theorems": [
    "Verif.C51_threshold",
    "Verif.C51_misaligned"
   ],
   "note": "defect: intended property refuted (C51_misaligned); C51_threshold states the actual window"
  },
  {
   "property": "C52",
   "status": "proved",
   "theorems": [
    "Verif.C52_hard"
   ],
   "note": ""
  },
  {
   "property": "C53",
   "status": "proved",
   "theorems": [
    "Verif.C53_severity"
   ],
   "note": "uses the law exp(1) <= np.e"
  },
  {
   "property": "C54",
   "status": "proved",
   "theorems": [
    "Verif.C54_variables",
    "Verif.C54_order"
   ],
   "note": ""
  },
  {
   "property": "C55",
   "status": "proved",
   "theorems": [
    "Verif.C55_changes"
   ],
   "note": ""
  },
  {
   "property": "C56",
   "status": "proved",
   "theorems": [
    "Verif.C56_attention"
   ],
   "note": ""
  },
  {
   "property": "C57",
   "status": "proved",
   "theorems": [
    "Verif.C57_batch_size"
   ],
   "note": "exact arithmetic: float32 kernels that give different roundings for different batch shapes are outside the model"
  },
  {
   "property": "C58",
   "status": "proved",
   "theorems": [
    "Verif.C58_best_epoch",
    "Verif.C58_unique",
    "Verif.C58_exists",
    "Verif.C58_no_epochs"
   ],
   "note": "defect: intended property refuted when no epoch has a loss below infinity (C58_best_epoch second case, C58_no_epochs); proved otherwise. C58_unique and C58_exists: the best epoch is well defined."
  },
  {
   "property": "C59",
   "status": "proved",
   "theorems": [
    "Verif.C59_samples",
    "Verif.C59_training",
    "Verif.C59_inference"
   ],
   "note": ""
  },
  {
   "property": "C60",
   "status": "proved",
   "theorems": [
    "Verif.C60_consumed",
    "Verif.C60_second_call",
    "Verif.C60_not_reusable"
   ],
   "note": "defect: intended property refuted (C60_not_reusable); C60_consumed and C60_second_call state the actual behaviour"
  },
  {
   "property": "C61",
   "status": "proved",
   "theorems": [
    "Verif.C61_untrained",
    "Verif.C61_no_threshold"
   ],
   "note": ""
  },
  {
   "property": "C62",
   "status": "proved",
   "theorems": [
    "Verif.C62_weights",
    "Verif.C62_range"
   ],
   "note": "weights that a fit without a finite epoch loss leaves come from the stale checkpoint (C58); C62_range covers them"
  },
  {
   "property": "C63",
   "status": "proved",
   "theorems": [
    "Verif.C63_average",
    "Verif.C63_no_validation"
   ],
   "note": "losses that are infinite in some batch are not described beyond the model's float addition"
  },
  {
   "property": "C64",
   "status": "proved",
   "theorems": [
    "Verif.C64_split",
    "Verif.C64_default",
    "Verif.C64_rounded",
    "Verif.C64_short"
   ],
   "note": ""
  },
  {
   "property": "C65",
   "status": "proved",
   "theorems": [
    "Verif.C65_microsecond_interval_false",
    "Verif.C65_microsecond_interval_near",
    "Verif.C65_grid",
    "Verif.C65_lost_milliseconds",
    "Verif.C65_accepted"
   ],
   "note": "defect: intended property refuted; the actual step and grid are proved"
  },
  {
   "property": "C66",
   "status": "proved",
   "theorems": [
    "Verif.C66_indices_bypass"
   ],
   "note": "defect: intended property refuted. Counterexample."
  },
  {
   "property": "C67",
   "status": "proved",
   "theorems": [
    "Verif.C67_unknown_keys"
   ],
   "note": "imputeMode='fixed' on a series with gaps is outside the quantifier (not modelled)."
  },
  {
   "property": "C68",
   "status": "proved",
   "theorems": [
    "Verif.C68_reported_iff_score",
    "Verif.C68_sensitivity_zero"
   ],
   "note": ""
  },
  {
   "property": "C69",
   "status": "proved",
   "theorems": [
    "Verif.C69_saved_threshold",
    "Verif.C69_unusable"
   ],
   "note": "defect: intended property refuted"
  },
  {
   "property": "C70",
   "status": "proved",
   "theorems": [
    "Verif.C70_predict_params"
   ],
   "note": ""
  },
  {
   "property": "C71",
   "status": "proved",
   "theorems": [
    "Verif.C71_epoch"
   ],
   "note": ""
  },
  {
   "property": "C72",
   "status": "proved",
   "theorems": [
    "Verif.C72_untrained_network",
    "Verif.C72_fit"
   ],
   "note": "defect: intended property refuted"
  },
  {
   "property": "C73",
   "status": "proved",
   "theorems": [
    "Verif.C73_threshold",
    "Verif.C73_default"
   ],
   "note": "Scores are those of the trained network and normalisation over the imputed, sorted training rows."
  },
  {
   "property": "C74",
   "status": "proved",
   "theorems": [
    "Verif.C74_answers"
   ],
   "note": "Without an epoch loss below infinity fit keeps no network of its own (see C58), so the theorem asks for one."
  },
  {
   "property": "C75",
   "status": "proved",
   "theorems": [
    "Verif.C75_failed_fit"
   ],
   "note": "defect: intended property refuted by a concrete run."
  },
  {
   "property": "C76",
   "status": "proved",
   "theorems": [
    "Verif.C76_short_window"
   ],
   "note": ""
  },
  {
   "property": "C77",
   "status": "proved",
   "theorems": [
    "Verif.C77_majority",
    "Verif.C77_esd"
   ],
   "note": "The critical value function and the normal quantile are environment functions."
  },
  {
   "property": "C78",
   "status": "proved",
   "theorems": [
    "Verif.C78_zscore",
    "Verif.C78_side"
   ],
   "note": "C78_side assumes the square root is accurate to a factor of two."
  },
  {
   "property": "C79",
   "status": "proved",
   "theorems": [
    "Verif.C79_budget",
    "Verif.C79_dynamic_threshold",
    "Verif.C79_seasonal",
    "Verif.C79_rows",
    "Verif.C79_seasonal_rows"
   ],
   "note": "STL decomposition is an environment function."
  },
  {
   "property": "C80",
   "status": "proved",
   "theorems": [
    "Verif.C80_flagged",
    "Verif.C80_score",
    "Verif.C80_latest"
   ],
   "note": "The spectral residual transform and quantiles are environment functions."
  },
  {
   "property": "C81",
   "status": "proved",
   "theorems": [
    "Verif.C81_guesses",
    "Verif.C81_simple",
    "Verif.C81_rejected_period"
   ],
   "note": "defect: intended property refuted (C81_rejected_period); C81_simple is the actual rule."
  },
  {
   "property": "C82",
   "status": "proved",
   "theorems": [
    "Verif.C82_spectrum",
    "Verif.C82_reported_period"
   ],
   "note": "imputeMode='fixed' on a series with gaps is outside the quantifier (not modelled)."
  },
  {
   "property": "C83",
   "status": "proved",
   "theorems": [
    "Verif.C83_second_values"
   ],
   "note": ""
  },
  {
   "property": "C84",
   "status": "proved",
   "theorems": [
    "Verif.C84_additive",
    "Verif.C84_log_domain",
    "Verif.C84_log_fit",
    "Verif.C84_adjust"
   ],
   "note": "the STL routine itself is a parameter"
  },
  {
   "property": "C85",
   "status": "proved",
   "theorems": [
    "Verif.C85_guessed_period",
    "Verif.C85_trend"
   ],
   "note": "filters and periodogram are parameters; float32 overflow of the broad trend is an oracle answer"
  },
  {
   "property": "C86",
   "status": "proved",
   "theorems": [
    "Verif.C86_amplitude",
    "Verif.C86_log_form",
    "Verif.C86_comment",
    "Verif.C86_scale",
    "Verif.C86_scale_zero"
   ],
   "note": "defect: intended property refuted (scale invariance fails when a magnitude is zero)"
  },
  {
   "property": "C87",
   "status": "proved",
   "theorems": [
    "Verif.C87_table",
    "Verif.C87_default",
    "Verif.C87_formula",
    "Verif.C87_alpha",
    "Verif.C87_nonfinite"
   ],
   "note": "formula over the real numbers; quantile function a parameter"
  },
  {
   "property": "C88",
   "status": "proved",
   "theorems": [
    "Verif.C88_histogram"
   ],
   "note": "bins by exact arithmetic"
  },
  {
   "property": "C89",
   "status": "proved",
   "theorems": [
    "Verif.C89_loss",
    "Verif.C89_epoch",
    "Verif.C89_sign"
   ],
   "note": "the environment evaluates the loss exactly (MEnv.Exact), shown to be satisfiable"
  },
  {
   "property": "C90",
   "status": "proved",
   "theorems": [
    "Verif.C90_shape",
    "Verif.C90_ends",
    "Verif.C90_overwritten",
    "Verif.C90_hang"
   ],
   "note": "defect: 'spline_seg' that goes on after an error can overwrite an observation (C90_overwritten) or loop forever (C90_hang)"
  },
  {
   "property": "C91",
   "status": "proved",
   "theorems": [
    "Verif.C91_range"
   ],
   "note": ""
  },
  {
   "property": "C92",
   "status": "proved",
   "theorems": [
    "Verif.C92_values",
    "Verif.C92_filled"
   ],
   "note": ""
  },
  {
   "property": "C93",
   "status": "proved",
   "theorems": [
    "Verif.C93_weighted",
    "Verif.C93_returns"
   ],
   "note": ""
  },
  {
   "property": "C94",
   "status": "proved",
   "theorems": [
    "Verif.C94_none",
    "Verif.C94_raise"
   ],
   "note": ""
  },
  {
   "property": "C95",
   "status": "proved",
   "theorems": [
    "Verif.C95_linear"
   ],
   "note": ""
  },
  {
   "property": "C96",
   "status": "proved",
   "theorems": [
    "Verif.C96_absorbs",
    "Verif.C96_spline",
    "Verif.C96_no_gaps",
    "Verif.C96_options"
   ],
   "note": "defect: 'fill_with_last' calls __step_by_step_fill_up without if_exception"
  },
  {
   "property": "C97",
   "status": "proved",
   "theorems": [
    "Verif.C97_indices",
    "Verif.C97_segments",
    "Verif.C97_no_gaps"
   ],
   "note": "defect: AttributeError without gaps"
  },
  {
   "property": "C98",
   "status": "proved",
   "theorems": [
    "Verif.C98_on_demand",
    "Verif.C98_large_gaps"
   ],
   "note": "ties the model of the calls predict makes to the model of all calls"
  },
  {
   "property": "C99",
   "status": "proved",
   "theorems": [
    "Verif.C99_pattern",
    "Verif.C99_unit",
    "Verif.C99_monotone"
   ],
   "note": "48 weeks count as a year and 28 days as a month"
  },
  {
   "property": "C100",
   "status": "proved",
   "theorems": [
    "Verif.C100_best",
    "Verif.C100_undetermined"
   ],
   "note": "sums are exact in the model; in floats equal abscissae need not cancel"
  },
  {
   "property": "C101",
   "status": "proved",
   "theorems": [
    "Verif.C101_straight",
    "Verif.C101_short",
    "Verif.C101_shift",
    "Verif.C101_empty"
   ],
   "note": ""
  },
  {
   "property": "C102",
   "status": "proved",
   "theorems": [
    "Verif.C102_detect",
    "Verif.C102_bounds"
   ],
   "note": ""
  },
  {
   "property": "C103",
   "status": "proved",
   "theorems": [
    "Verif.C103_rows",
    "Verif.C103_seasonal",
    "Verif.C103_nonseasonal",
    "Verif.C103_refused"
   ],
   "note": "defect: no direction columns without an anomaly; the nonseasonal expected values always include the anomalies. detect_model.py imports the module from a package that does not exist, so the public API cannot reach it"
  },
  {
   "property": "C104",
   "status": "proved",
   "theorems": [
    "Verif.C104_read",
    "Verif.C104_instant",
    "Verif.C104_round_trip"
   ],
   "note": "assumes dateutil.parser.parse reads back the two formats (TimeLib.WF)"
  },
  {
   "property": "C105",
   "status": "proved",
   "theorems": [
    "Verif.C105_sound",
    "Verif.C105_complete",
    "Verif.C105_refused",
    "Verif.C105_never_read",
    "Verif.C105_column",
    "Verif.C105_mixed",
    "Verif.C105_epoch",
    "Verif.C105_round_trip"
   ],
   "note": "defect: the formats of MM/DD/YYYY and YYYYMMDD are not those of their shapes and the offset has no %z, so these three never parse. Nothing in the package calls these functions"
  },
  {
   "property": "C106",
   "status": "proved",
   "theorems": [
    "Verif.C106_results",
    "Verif.C106_severity",
    "Verif.C106_peak",
    "Verif.C106_long",
    "Verif.C106_weights",
    "Verif.C106_zero",
    "Verif.C106_blend"
   ],
   "note": "nothing in the package calls these functions"
  },
  {
   "property": "C107",
   "status": "proved",
   "theorems": [
    "Verif.C107_network",
    "Verif.C107_accepts",
    "Verif.C107_ranges",
    "Verif.C107_peak",
    "Verif.C107_hidden",
    "Verif.C107_outputs"
   ],
   "note": "matrix products are exact; the range of hidden states assumes |tanh| <= 1"
  },
  {
   "property": "C108",
   "status": "proved",
   "theorems": [
    "Verif.C108_exact",
    "Verif.C108_computed",
    "Verif.C108_near",
    "Verif.C108_points",
    "Verif.C108_monotone",
    "Verif.C108_full",
    "Verif.C108_band",
    "Verif.C108_outside"
   ],
   "note": "defect: in doubles a normal point can lie outside of its band (C108_outside). The frame itself is any list of rows of floats"
  },
  {
   "property": "C109",
   "status": "proved",
   "theorems": [
    "Verif.C109_local",
    "Verif.C109_prefix",
    "Verif.C109_suffix",
    "Verif.C109_grow",
    "Verif.C109_linear"
   ],
   "note": "defect: with linear filling later rows change earlier results (C109_linear)"
  },
  {
   "property": "C110",
   "status": "proved",
   "theorems": [
    "Verif.C110_unused",
    "Verif.C110_shift",
    "Verif.C110_steps",
    "Verif.C110_subsecond"
   ],
   "note": "defect: a shift by a fraction of a second can turn an answer into an error (C110_subsecond)"
  },
  {
   "property": "C111",
   "status": "proved",
   "theorems": [
    "Verif.C111_predict",
    "Verif.C111_fit",
    "Verif.C111_order"
   ],
   "note": "defect: a table with other variables than those of the training is answered (C111_predict)"
  },
  {
   "property": "C112",
   "status": "proved",
   "theorems": [
    "Verif.C112_constant",
    "Verif.C112_all_anomalies"
   ],
   "note": "defect: rows without any change can all be anomalies, with severity 0 (C112_all_anomalies)"
  },
  {
   "property": "C113",
   "status": "proved",
   "theorems": [
    "Verif.C113_timestamp",
    "Verif.C113_refused"
   ],
   "note": "defect: fit fails on tables with a timestamp column (C113_timestamp, C113_refused)"
  },
  {
   "property": "C114",
   "status": "proved",
   "theorems": [
    "Verif.C114_threshold",
    "Verif.C114_seasonal"
   ],
   "note": ""
  },
  {
   "property": "C115",
   "status": "proved",
   "theorems": [
    "Verif.C115_threshold",
    "Verif.C115_seasonal",
    "Verif.C115_modes",
    "Verif.C115_majority",
    "Verif.C115_crowded"
   ],
   "note": "defect: LATEST mode misses latest points that ENTIRE mode reports (C115_majority); in the seasonal model it flags points that ENTIRE mode does not (C115_crowded)"
  },
  {
   "property": "C116",
   "status": "proved",
   "theorems": [
    "Verif.C116_nan"
   ],
   "note": "defect: NaN passes the ratio check and ends in a ValueError (C116_nan)"
  },
  {
   "property": "C117",
   "status": "proved",
   "theorems": [
    "Verif.C117_detected",
    "Verif.C117_unseasonal",
    "Verif.C117_seasonal",
    "Verif.C117_too_long",
    "Verif.C117_collision",
    "Verif.C117_ratio_limit",
    "Verif.C117_library"
   ],
   "note": "defect: a period that is too long and timestamps that share a grid position end in a ValueError instead of an error code (C117_too_long, C117_collision); the ratio limit 0.49 admits requests whose whole trend is wiped (C117_ratio_limit)"
  },
  {
   "property": "C118",
   "status": "proved",
   "theorems": [
    "Verif.C118_no_effect",
    "Verif.C118_spectrum",
    "Verif.C118_unseasonal",
    "Verif.C118_spectrum_raises",
    "Verif.C118_found_raises"
   ],
   "note": "defect: the options needDetectorId, needFillUpConfirm and needSpectrumPeriod are accepted but nothing they ask for is returned; needSpectrumPeriod can make a request fail (C118_spectrum_raises)"
  },
  {
   "property": "C119",
   "status": "proved",
   "theorems": [
    "Verif.C119_forward",
    "Verif.C119_accepts",
    "Verif.C119_centred",
    "Verif.C119_laws",
    "Verif.C119_step",
    "Verif.C119_stored",
    "Verif.C119_random"
   ],
   "note": ""
  },
  {
   "property": "C120",
   "status": "proved",
   "theorems": [
    "Verif.C120_unread",
    "Verif.C120_weights"
   ],
   "note": "defect: the parameters dropout and gamma are accepted and have no influence"
  },
  {
   "property": "C121",
   "status": "proved",
   "theorems": [
    "Verif.C121_prepared",
    "Verif.C121_no_rows",
    "Verif.C121_early",
    "Verif.C121_late",
    "Verif.C121_no_best"
   ],
   "note": "defect: batch_size 1 is accepted and always fails; a fit that fails after its epochs leaves the new network beside the old threshold"
  },
  {
   "property": "C122",
   "status": "proved",
   "theorems": [
    "Verif.C122_ends"
   ],
   "note": "defect: the number of columns is never compared with that of the training table"
  },
  {
   "property": "C123",
   "status": "proved",
   "theorems": [
    "Verif.C123_offset",
    "Verif.C123_calm"
   ],
   "note": ""
  },
  {
   "property": "C124",
   "status": "proved",
   "theorems": [
    "Verif.C124_afresh",
    "Verif.C124_no_trace",
    "Verif.C124_unasked",
    "Verif.C124_answers"
   ],
   "note": ""
  },
  {
   "property": "C125",
   "status": "proved",
   "theorems": [
    "Verif.C125_threshold",
    "Verif.C125_alpha",
    "Verif.C125_threshold_used",
    "Verif.C125_alpha_used"
   ],
   "note": ""
  },
  {
   "property": "C126",
   "status": "proved",
   "theorems": [
    "Verif.C126_step",
    "Verif.C126_minutes",
    "Verif.C126_window",
    "Verif.C126_guess"
   ],
   "note": "defect: intended property refuted (C126_window, C126_guess). Proved: where the unit does not matter."
  },
  {
   "property": "C127",
   "status": "proved",
   "theorems": [
    "Verif.C127_level",
    "Verif.C127_weights"
   ],
   "note": ""
  },
  {
   "property": "C128",
   "status": "proved",
   "theorems": [
    "Verif.C128_horizon",
    "Verif.C128_targets"
   ],
   "note": "defect: intended property refuted (C128_targets): a network trained for the row horizon places ahead is validated, calibrated and used for the next row"
  },
  {
   "property": "C129",
   "status": "proved",
   "theorems": [
    "Verif.C129_labels",
    "Verif.C129_state"
   ],
   "note": "labels of a table have to be distinct: the order in which sort_index leaves rows with equal labels is not specified"
  },
  {
   "property": "C130",
   "status": "proved",
   "theorems": [
    "Verif.C130_raise",
    "Verif.C130_dynamic",
    "Verif.C130_limit",
    "Verif.C130_stationary",
    "Verif.C130_latest",
    "Verif.C130_share",
    "Verif.C130_seasonal"
   ],
   "note": "defect: a larger maxAnomalyRatio can remove anomalies with the dynamic threshold model (C130_dynamic) and with the seasonal model (C130_seasonal), for library behaviours that satisfy the laws of the trusted base. The positive parts are C130_raise (spectral residual model), C130_stationary and C130_latest (dynamic threshold model, stationary series; C130_latest assumes that the share of the fullest histogram bin is at most 1, which C88_histogram shows for Lib.env), C130_limit and C130_share (seasonal model)."
  },
  {
   "property": "C131",
   "status": "proved",
   "theorems": [
    "Verif.C131_epochs"
   ],
   "note": "the environment is one built from the parts of a training library (TrainEnv), as in C119 and C120"
  },
  {
   "property": "C132",
   "status": "proved",
   "theorems": [
    "Verif.C132_threshold"
   ],
   "note": "defect: intended property refuted (C132_threshold, for a library behaviour that satisfies the laws of the trusted base)"
  },
  {
   "property": "C133",
   "status": "proved",
   "theorems": [
    "Verif.C133_mirror",
    "Verif.C133_cut_off",
    "Verif.C133_library"
   ],
   "note": "defect: lower V1 boundaries that all lie below the data are not cut off, upper ones are (C133_cut_off). C133_mirror assumes the symmetry laws Mirror of the library; C133_library derives those about the code's own fit_trend and spectral residual transform from laws of the third-party functions (LibMirror)"
  },
  {
   "property": "C134",
   "status": "proved",
   "theorems": [
    "Verif.C134_same",
    "Verif.C134_versions",
    "Verif.C134_found",
    "Verif.C134_flags",
    "Verif.C134_raises"
   ],
   "note": "C134_flags and C134_raises show what the version can change"
  },
  {
   "property": "C135",
   "status": "proved",
   "theorems": [
    "Verif.C135_unit",
    "Verif.C135_boundary_unit",
    "Verif.C135_tiny"
   ],
   "note": "defect: the least unit of V2 boundaries is 0.3 whatever the unit of the data (C135_boundary_unit), and very small numbers can lose their anomalies (C135_tiny). C135_unit assumes the laws Scale of the library; its transform law is asked only of the lists that the transform is applied to, since C86_scale_zero refutes it for lists with a vanishing frequency"
  },
  {
   "property": "C136",
   "status": "proved",
   "theorems": [
    "Verif.C136_inputs",
    "Verif.C136_volatile",
    "Verif.C136_tiny"
   ],
   "note": "defect: intended property refuted (C136_volatile, C136_tiny, for a training library that satisfies the laws of the trusted base). C136_inputs bounds what the network sees of the unit"
  },
  {
   "property": "C137",
   "status": "proved",
   "theorems": [
    "Verif.C137_degrees",
    "Verif.C137_unit",
    "Verif.C137_zero",
    "Verif.C137_library"
   ],
   "note": "defect: V1 margins are a share of the expected value, so the answer depends on where zero is (C137_zero, for a library behaviour that satisfies the laws of the trusted base). C137_degrees and C137_unit assume the laws Degrees; C137_library derives them from laws of the third-party functions (LibDegrees)"
  },
  {
   "property": "C138",
   "status": "proved",
   "theorems": [
    "Verif.C138_limit",
    "Verif.C138_alpha",
    "Verif.C138_share",
    "Verif.C138_differences",
    "Verif.C138_seasonal",
    "Verif.C138_library"
   ],
   "note": "defect: a higher alpha can lose an anomaly (C138_differences, C138_seasonal, for library behaviours that satisfy the laws of the trusted base). C138_alpha, C138_limit and C138_share assume that no critical value is greater for the second alpha (NotStricter); C138_library derives that for two values away from 0.05 from laws of the quantile function, the square root and the rounding to single precision"
  }
 ]
}