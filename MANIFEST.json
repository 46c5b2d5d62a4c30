{
 "claims": [
  {
   "property": "C01",
   "status": "proved",
   "theorems": [
    "PyPDP.C01_unscale_scale",
    "PyPDP.C01_scale_unscale",
    "PyPDP.C01_unscale_is_interpolation"
   ],
   "note": "exact real arithmetic; both directions of scale_float/unscale_float on linear and log axes"
  },
  {
   "property": "C02",
   "status": "partial",
   "theorems": [
    "PyPDP.C02_scale_range_partial",
    "PyPDP.C02_negative_log_counterexample",
    "PyPDP.C02_unscale_range",
    "PyPDP.C02_unknown_name"
   ],
   "note": "Proved for every input except negative values on a log axis, where np.log gives nan (C02_negative_log_counterexample)."
  },
  {
   "property": "C03",
   "status": "proved",
   "theorems": [
    "PyPDP.C03_threshold",
    "PyPDP.C03_strictMono"
   ],
   "note": ""
  },
  {
   "property": "C04",
   "status": "partial",
   "theorems": [
    "PyPDP.C04_unscale_float",
    "PyPDP.C04_unscale_categorical_partial",
    "PyPDP.C04_unsupported_kind",
    "PyPDP.C04_categorical_float",
    "PyPDP.C04_categorical_counterexample"
   ],
   "note": "Float arrays of 1-3 dimensions and two-dimensional integer arrays of codes are proved; unsupported kinds and categorical float columns raise TypeError. Integer arrays of 1 or 3 dimensions are not translated (C04_categorical_counterexample)."
  },
  {
   "property": "C05",
   "status": "proved",
   "theorems": [
    "PyPDP.C05_get_many",
    "PyPDP.C05_convert_many",
    "PyPDP.C05_single",
    "PyPDP.C05_errors",
    "PyPDP.C05_foreign_selection",
    "PyPDP.C05_none_and_agree"
   ],
   "note": ""
  },
  {
   "property": "C06",
   "status": "proved",
   "theorems": [
    "PyPDP.C06_positions",
    "PyPDP.C06_distinct",
    "PyPDP.C06_known_and_unknown"
   ],
   "note": ""
  },
  {
   "property": "C07",
   "status": "proved",
   "theorems": [
    "PyPDP.C07_ranges",
    "PyPDP.C07_shape",
    "PyPDP.C07_nonnumerical"
   ],
   "note": ""
  },
  {
   "property": "C08",
   "status": "proved",
   "theorems": [
    "PyPDP.C08_reproducible",
    "PyPDP.C08_original_undisturbed",
    "PyPDP.C08_true_shares",
    "PyPDP.C08_seed_range",
    "PyPDP.C08_seed_injective",
    "PyPDP.C08_class_matters",
    "PyPDP.C08_stream"
   ],
   "note": ""
  },
  {
   "property": "C09",
   "status": "proved",
   "theorems": [
    "PyPDP.C09_median",
    "PyPDP.C09_order_irrelevant",
    "PyPDP.C09_no_distance"
   ],
   "note": ""
  },
  {
   "property": "C10",
   "status": "proved",
   "theorems": [
    "PyPDP.C10_scalar",
    "PyPDP.C10_iterables",
    "PyPDP.C10_errors"
   ],
   "note": ""
  },
  {
   "property": "C11",
   "status": "proved",
   "theorems": [
    "PyPDP.C11_legal",
    "PyPDP.C11_illegal"
   ],
   "note": ""
  },
  {
   "property": "C12",
   "status": "proved",
   "theorems": [
    "PyPDP.C12_square",
    "PyPDP.C12_negative_square"
   ],
   "note": ""
  },
  {
   "property": "C13",
   "status": "proved",
   "theorems": [
    "PyPDP.C13_levy"
   ],
   "note": ""
  },
  {
   "property": "C14",
   "status": "proved",
   "theorems": [
    "PyPDP.C14_ackley"
   ],
   "note": ""
  },
  {
   "property": "C15",
   "status": "proved",
   "theorems": [
    "PyPDP.C15_digits",
    "PyPDP.C15_symmetric",
    "PyPDP.C15_upper",
    "PyPDP.C15_minimum",
    "PyPDP.C15_minimisers"
   ],
   "note": ""
  },
  {
   "property": "C16",
   "status": "proved",
   "theorems": [
    "PyPDP.C16_additive",
    "PyPDP.C16_lower_bound",
    "PyPDP.C16_documented_minimum_undercut",
    "PyPDP.C16_unique_minimum"
   ],
   "note": "C16_unique_minimum gives the minimiser and the minimum; the documented minimum -39.16599*d is shown to be undercut (C16_documented_minimum_undercut), so the class comment is off in the fourth decimal."
  },
  {
   "property": "C17",
   "status": "proved",
   "theorems": [
    "PyPDP.C17_pd_integral"
   ],
   "note": ""
  },
  {
   "property": "C18",
   "status": "partial",
   "theorems": [
    "PyPDP.C18_reduced_space",
    "PyPDP.C18_errors",
    "PyPDP.C18_duplicate_counterexample",
    "PyPDP.C18_duplicates_partial",
    "PyPDP.C18_occurrences"
   ],
   "note": "false for repeated hyperparameters (C18_duplicate_counterexample); C18_occurrences gives the exact value for every selection: each occurrence adds its average once more"
  },
  {
   "property": "C19",
   "status": "proved",
   "theorems": [
    "PyPDP.C19_evaluations",
    "PyPDP.C19_exception",
    "PyPDP.C19_sample_appends",
    "PyPDP.C19_history"
   ],
   "note": ""
  },
  {
   "property": "C20",
   "status": "partial",
   "theorems": [
    "PyPDP.C20_random_bo",
    "PyPDP.C20_grid_partial",
    "PyPDP.C20_grid_counterexample",
    "PyPDP.C20_grid_after_exception_partial",
    "PyPDP.C20_grid_exact"
   ],
   "note": "proved for RandomSampler and BayesianOptimizationSampler at every crash point; GridSampler appends the configuration before evaluating it, so an exception leaves config_list one longer (C20_grid_counterexample); proved for GridSampler histories whose objective returns normally; C20_grid_exact says what a GridSampler records in every history"
  },
  {
   "property": "C21",
   "status": "proved",
   "theorems": [
    "PyPDP.C21_incumbent",
    "PyPDP.C21_never_worse"
   ],
   "note": ""
  },
  {
   "property": "C22",
   "status": "partial",
   "theorems": [
    "PyPDP.C22_replay_partial",
    "PyPDP.C22_larger_first_call_partial",
    "PyPDP.C22_same_call_partial",
    "PyPDP.C22_counterexample",
    "PyPDP.C22_random_exact",
    "PyPDP.C22_exact",
    "PyPDP.C22_exact_replay"
   ],
   "note": "false in general (C22_counterexample): sample compares len(self)+n with the remaining cache; proved for call sequences within the rule, for the first call, for repeating a single call; C22_random_exact says what every sequence of calls on a RandomSampler does; C22_exact and C22_exact_replay do so for all three classes"
  },
  {
   "property": "C23",
   "status": "proved",
   "theorems": [
    "PyPDP.C23_save_load",
    "PyPDP.C23_not_written",
    "PyPDP.C23_corrupt_file"
   ],
   "note": ""
  },
  {
   "property": "C24",
   "status": "partial",
   "theorems": [
    "PyPDP.C24_counterexample",
    "PyPDP.C24_one_call_partial",
    "PyPDP.C24_save_again",
    "PyPDP.C24_exact"
   ],
   "note": "false in general (C24_counterexample); C24_exact gives the number of points left on disk after every sequence of successful calls, for all three samplers"
  },
  {
   "property": "C25",
   "status": "partial",
   "theorems": [
    "PyPDP.C25_one_part_partial",
    "PyPDP.C25_counterexample",
    "PyPDP.C25_surrogate_counterexample",
    "PyPDP.C25_concatenation_counterexample",
    "PyPDP.C25_exact"
   ],
   "note": "false in general: minimize_objective is not part of the key, nor are the options of the surrogate (C25_surrogate_counterexample), and parts are concatenated without separator; C25_exact characterises equal keys (md5 assumed injective)"
  },
  {
   "property": "C26",
   "status": "partial",
   "theorems": [
    "PyPDP.C26_drawn_partial",
    "PyPDP.C26_counterexample"
   ],
   "note": "false for n = 1 (KeyError, C26_counterexample); proved for every n >= 2"
  },
  {
   "property": "C27",
   "status": "proved",
   "theorems": [
    "PyPDP.C27_grid_points",
    "PyPDP.C27_first_call",
    "PyPDP.C27_no_duplicates"
   ],
   "note": ""
  },
  {
   "property": "C28",
   "status": "partial",
   "theorems": [
    "PyPDP.C28_exact",
    "PyPDP.C28_grid_size",
    "PyPDP.C28_enough_partial",
    "PyPDP.C28_history_partial",
    "PyPDP.C28_counterexample"
   ],
   "note": "false for repeated calls (C28_counterexample, IndexError); C28_exact says exactly which calls fail at any point of any history"
  },
  {
   "property": "C29",
   "status": "proved",
   "theorems": [
    "PyPDP.C29_initial_then_acquired",
    "PyPDP.C29_only_acquired"
   ],
   "note": ""
  },
  {
   "property": "C30",
   "status": "proved",
   "theorems": [
    "PyPDP.C30_fitted",
    "PyPDP.C30_asked"
   ],
   "note": ""
  },
  {
   "property": "C31",
   "status": "partial",
   "theorems": [
    "PyPDP.C31_counterexample",
    "PyPDP.C31_refit_harmless_partial"
   ],
   "note": "false of the code: the md5 objects are compared by identity, so every call refits (C31_counterexample); proved: the redundant refit leaves the recorded points unchanged and refits on the same data"
  },
  {
   "property": "C32",
   "status": "proved",
   "theorems": [
    "PyPDP.C32_acquired"
   ],
   "note": ""
  },
  {
   "property": "C33",
   "status": "proved",
   "theorems": [
    "PyPDP.C33_value",
    "PyPDP.C33_le_sqrt_two",
    "PyPDP.C33_order_irrelevant",
    "PyPDP.C33_undefined",
    "PyPDP.C33_unbiased"
   ],
   "note": ""
  },
  {
   "property": "C34",
   "status": "partial",
   "theorems": [
    "PyPDP.C34_configs_partial",
    "PyPDP.C34_counterexample"
   ],
   "note": "proved for configurations and lists; false for arrays (C34_counterexample: two rows give one number, any other number of rows raises)"
  },
  {
   "property": "C35",
   "status": "partial",
   "theorems": [
    "PyPDP.C35_best_partial",
    "PyPDP.C35_counterexample"
   ],
   "note": "proved for n >= 2; false for n = 1 (TypeError, C35_counterexample)"
  },
  {
   "property": "C36",
   "status": "proved",
   "theorems": [
    "PyPDP.C36_expectation",
    "PyPDP.C36_zero_sigma",
    "PyPDP.C36_no_maximisation",
    "PyPDP.C36_positive",
    "PyPDP.C36_strictly_decreasing",
    "PyPDP.C36_increasing_in_eta"
   ],
   "note": ""
  },
  {
   "property": "C37",
   "status": "proved",
   "theorems": [
    "PyPDP.C37_minimise",
    "PyPDP.C37_maximise",
    "PyPDP.C37_range",
    "PyPDP.C37_strict"
   ],
   "note": ""
  },
  {
   "property": "C38",
   "status": "proved",
   "theorems": [
    "PyPDP.C38_optimistic"
   ],
   "note": ""
  },
  {
   "property": "C39",
   "status": "partial",
   "theorems": [
    "PyPDP.C39_best_partial",
    "PyPDP.C39_counterexample"
   ],
   "note": "proved for at least two candidates; with one candidate a hyperparameter name is returned (C39_counterexample)"
  },
  {
   "property": "C40",
   "status": "proved",
   "theorems": [
    "PyPDP.C40_grid",
    "PyPDP.C40_nothing_selected"
   ],
   "note": ""
  },
  {
   "property": "C41",
   "status": "proved",
   "theorems": [
    "PyPDP.C41_x_ice",
    "PyPDP.C41_succeeds"
   ],
   "note": ""
  },
  {
   "property": "C42",
   "status": "proved",
   "theorems": [
    "PyPDP.C42_predictions"
   ],
   "note": ""
  },
  {
   "property": "C43",
   "status": "proved",
   "theorems": [
    "PyPDP.C43_centered"
   ],
   "note": ""
  },
  {
   "property": "C44",
   "status": "proved",
   "theorems": [
    "PyPDP.C44_one_calculation",
    "PyPDP.C44_first_read",
    "PyPDP.C44_read_keeps_attributes"
   ],
   "note": ""
  },
  {
   "property": "C45",
   "status": "proved",
   "theorems": [
    "PyPDP.C45_average",
    "PyPDP.C45_bounds",
    "PyPDP.C45_order_irrelevant",
    "PyPDP.C45_x_pdp"
   ],
   "note": ""
  },
  {
   "property": "C46",
   "status": "proved",
   "theorems": [
    "PyPDP.C46_from_ice",
    "PyPDP.C46_grid_points"
   ],
   "note": ""
  },
  {
   "property": "C47",
   "status": "proved",
   "theorems": [
    "PyPDP.C47_curve",
    "PyPDP.C47_implied_config_space",
    "PyPDP.C47_implied_empty",
    "PyPDP.C47_implied_integer_refused",
    "PyPDP.C47_implied_of_ice"
   ],
   "note": "integer hyperparameters: hypothesis that the extremes are integral, which holds for every curve of an ICE object (C47_implied_of_ice)"
  },
  {
   "property": "C48",
   "status": "partial",
   "theorems": [
    "PyPDP.C48_reproducible",
    "PyPDP.C48_undisturbed",
    "PyPDP.C48_size_partial",
    "PyPDP.C48_counterexample"
   ],
   "note": "proved for num_samples >= 2 (given that sample_configuration(n) returns n configurations), reproducibility and isolation for every number; false for num_samples = 1 (C48_counterexample, AttributeError)"
  },
  {
   "property": "C49",
   "status": "proved",
   "theorems": [
    "PyPDP.C49_never_split"
   ],
   "note": ""
  },
  {
   "property": "C50",
   "status": "proved",
   "theorems": [
    "PyPDP.C50_leaves_partition"
   ],
   "note": ""
  },
  {
   "property": "C51",
   "status": "proved",
   "theorems": [
    "PyPDP.C51_depth_and_count",
    "PyPDP.C51_no_depth"
   ],
   "note": ""
  },
  {
   "property": "C52",
   "status": "proved",
   "theorems": [
    "PyPDP.C52_min_points"
   ],
   "note": ""
  },
  {
   "property": "C53",
   "status": "proved",
   "theorems": [
    "PyPDP.C53_best_split",
    "PyPDP.C53_terminal"
   ],
   "note": ""
  },
  {
   "property": "C54",
   "status": "proved",
   "theorems": [
    "PyPDP.C54_split_whenever_possible",
    "PyPDP.C54_greedy_tree"
   ],
   "note": ""
  },
  {
   "property": "C55",
   "status": "proved",
   "theorems": [
    "PyPDP.C55_minimal",
    "PyPDP.C55_zero_iff",
    "PyPDP.C55_order_irrelevant"
   ],
   "note": ""
  },
  {
   "property": "C56",
   "status": "proved",
   "theorems": [
    "PyPDP.C56_split",
    "PyPDP.C56_total"
   ],
   "note": ""
  },
  {
   "property": "C57",
   "status": "proved",
   "theorems": [
    "PyPDP.C57_exactly_one_leaf",
    "PyPDP.C57_before_partition",
    "PyPDP.C57_categorical_raises"
   ],
   "note": ""
  },
  {
   "property": "C58",
   "status": "proved",
   "theorems": [
    "PyPDP.C58_curve_in_its_leaf"
   ],
   "note": ""
  },
  {
   "property": "C59",
   "status": "partial",
   "theorems": [
    "PyPDP.C59_box",
    "PyPDP.C59_contains_iff",
    "PyPDP.C59_leaves",
    "PyPDP.C59_proper_box",
    "PyPDP.C59_no_conditions_partial",
    "PyPDP.C59_integer_counterexample",
    "PyPDP.C59_not_numerical"
   ],
   "note": "Box, containment and leaves are proved for all numerical spaces. 'Without conditions it equals the original space' is proved for float hyperparameters; it is false with integer ones, which become float ranges (C59_integer_counterexample)."
  },
  {
   "property": "C60",
   "status": "proved",
   "theorems": [
    "PyPDP.C60_complementary",
    "PyPDP.C60_constructor",
    "PyPDP.C60_other_values",
    "PyPDP.C60_value",
    "PyPDP.C60_normalized",
    "PyPDP.C60_categorical_value"
   ],
   "note": ""
  },
  {
   "property": "C61",
   "status": "proved",
   "theorems": [
    "PyPDP.C61_repeatable",
    "PyPDP.C61_refines"
   ],
   "note": ""
  },
  {
   "property": "C62",
   "status": "partial",
   "theorems": [
    "PyPDP.C62_from_ice_partial",
    "PyPDP.C62_centered_partial",
    "PyPDP.C62_centered_iff",
    "PyPDP.C62_exact",
    "PyPDP.C62_centered_counterexample"
   ],
   "note": "Proved for ICE objects that are not centered, after any reads and resets. False for centered ones: the root holds the uncentered predictions (C62_centered_counterexample); x values and variances still agree (C62_centered_partial); C62_centered_iff says when the statement holds for centered objects, C62_exact what the root holds after any history of the ICE object"
  },
  {
   "property": "C63",
   "status": "partial",
   "theorems": [
    "PyPDP.C63_gaussian",
    "PyPDP.C63_smallest",
    "PyPDP.C63_styblinski_tang_partial",
    "PyPDP.C63_errors",
    "PyPDP.C63_two_selected_counterexample"
   ],
   "note": "Proved for every function whose pd_integral accepts the call, and in closed form for StyblinskiTang with one selected float hyperparameter. False for two selected hyperparameters: the integral is called with the first one only and raises ValueError (C63_two_selected_counterexample)."
  },
  {
   "property": "C64",
   "status": "proved",
   "theorems": [
    "PyPDP.C64_delta",
    "PyPDP.C64_order"
   ],
   "note": ""
  },
  {
   "property": "C65",
   "status": "proved",
   "theorems": [
    "PyPDP.C65_root_is_pdp",
    "PyPDP.C65_weighted_average"
   ],
   "note": ""
  },
  {
   "property": "C66",
   "status": "proved",
   "theorems": [
    "PyPDP.C66_new",
    "PyPDP.C66_from_ice",
    "PyPDP.C66_partition",
    "PyPDP.C66_replaces",
    "PyPDP.C66_nothing_requested"
   ],
   "note": ""
  },
  {
   "property": "C67",
   "status": "partial",
   "theorems": [
    "PyPDP.C67_default_counterexample",
    "PyPDP.C67_all_samples_partial"
   ],
   "note": "False: without sample_size every call that asks for a tree raises TypeError (C67_default_counterexample, for all inputs). Proved for an explicit sample_size = len(samples)."
  },
  {
   "property": "C68",
   "status": "partial",
   "theorems": [
    "PyPDP.C68_ignored_counterexample",
    "PyPDP.C68_options_partial"
   ],
   "note": "False: the trees do not depend on the options given to the forest (C68_ignored_counterexample, for all inputs); they are always grown with 100 splits per axis and 1 point per node, so the claim holds for exactly these options (C68_options_partial)."
  },
  {
   "property": "C69",
   "status": "proved",
   "theorems": [
    "PyPDP.C69_votes",
    "PyPDP.C69_no_trees",
    "PyPDP.C69_shrinks",
    "PyPDP.C69_all",
    "PyPDP.C69_none",
    "PyPDP.C69_incumbent",
    "PyPDP.C69_after_partition"
   ],
   "note": ""
  },
  {
   "property": "C70",
   "status": "proved",
   "theorems": [
    "PyPDP.C70_shape",
    "PyPDP.C70_none",
    "PyPDP.C70_rounded"
   ],
   "note": "all integers n; exact square root"
  },
  {
   "property": "C71",
   "status": "partial",
   "theorems": [
    "PyPDP.C71_first_one",
    "PyPDP.C71_first_two",
    "PyPDP.C71_repeat",
    "PyPDP.C71_rejected",
    "PyPDP.C71_sequence_partial",
    "PyPDP.C71_other_quantity",
    "PyPDP.C71_name_counterexample",
    "PyPDP.C71_many_counterexample",
    "PyPDP.C71_exact"
   ],
   "note": "proved for every call sequence whose selections have one or two hyperparameters, none of them named like the quantity on the y axis; a hyperparameter named 'Prediction' can be mixed (C71_name_counterexample), a selection of none or more than two is never rejected (C71_many_counterexample) C71_exact says which calls are accepted in every sequence (labels not empty)."
  },
  {
   "property": "C72",
   "status": "partial",
   "theorems": [
    "PyPDP.C72_bands",
    "PyPDP.C72_nested",
    "PyPDP.C72_stds",
    "PyPDP.C72_lines_partial",
    "PyPDP.C72_small_counterexample",
    "PyPDP.C72_iterator_counterexample",
    "PyPDP.C72_iterator_exact"
   ],
   "note": "bands: all inputs; lines: factors of at least 0.2 (a smaller one raises ValueError because alpha = 0.2/k exceeds 1, C72_small_counterexample: every other sequence), given as a sequence (the test for 0 uses up a one-shot iterator up to its first 0, C72_iterator_counterexample, C72_iterator_exact)"
  },
  {
   "property": "C73",
   "status": "proved",
   "theorems": [
    "PyPDP.C73_one",
    "PyPDP.C73_two",
    "PyPDP.C73_count",
    "PyPDP.C73_kind",
    "PyPDP.C73_axis"
   ],
   "note": "exact reals; every n >= 2 samples per axis"
  },
  {
   "property": "C74",
   "status": "proved",
   "theorems": [
    "PyPDP.C74_one",
    "PyPDP.C74_two",
    "PyPDP.C74_empty",
    "PyPDP.C74_other"
   ],
   "note": "numerical hyperparameters, exact reals"
  },
  {
   "property": "C75",
   "status": "proved",
   "theorems": [
    "PyPDP.C75_valid",
    "PyPDP.C75_one"
   ],
   "note": "any ordered field with floor; colorsys modelled"
  },
  {
   "property": "C76",
   "status": "partial",
   "theorems": [
    "PyPDP.C76_mixed_space_counterexample",
    "PyPDP.C76_float_counterexample",
    "PyPDP.C76_integral_bounds_partial",
    "PyPDP.C76_exact",
    "PyPDP.C76_exact_unknown",
    "PyPDP.C76_exact_dimensions"
   ],
   "note": "False of every float array (C76_float_counterexample) and of integer arrays with non-integral bounds (C76_mixed_space_counterexample); proved for two-dimensional integer arrays whose axes have integral bounds (C76_integral_bounds_partial). C76_exact, C76_exact_unknown and C76_exact_dimensions say what integer arrays become in every case."
  },
  {
   "property": "C77",
   "status": "partial",
   "theorems": [
    "PyPDP.C77_split_counterexample",
    "PyPDP.C77_split_partial",
    "PyPDP.C77_exact"
   ],
   "note": "False when a call starts with some but fewer than initial_points points and ends with more (C77_split_counterexample); exactly then, for all sequences of successful calls (C77_exact, which also gives the number drawn instead)."
  },
  {
   "property": "C78",
   "status": "proved",
   "theorems": [
    "PyPDP.C78_inputs"
   ],
   "note": ""
  },
  {
   "property": "C79",
   "status": "partial",
   "theorems": [
    "PyPDP.C79_counterexample",
    "PyPDP.C79_score_partial"
   ],
   "note": "predict has no keyword return_std: TypeError for every non-empty input (C79_counterexample); proved for empty inputs and for a predict that accepts the keyword"
  },
  {
   "property": "C80",
   "status": "partial",
   "theorems": [
    "PyPDP.C80_exact",
    "PyPDP.C80_after_reset",
    "PyPDP.C80_life_partial",
    "PyPDP.C80_samples_counterexample",
    "PyPDP.C80_grid_counterexample",
    "PyPDP.C80_reset_partial"
   ],
   "note": "proved for new samples of the same number and for `centered`; false for a different number of samples (C80_samples_counterexample, ValueError) and for the grid size (C80_grid_counterexample, ignored); C80_exact says for every history of operations what each read returns (the calculation with the attributes at the first successful read since the last reset, on the grid of the first read ever), C80_life_partial compares with a newly built object for every history"
  },
  {
   "property": "C81",
   "status": "partial",
   "theorems": [
    "PyPDP.C81_exact",
    "PyPDP.C81_ice_history",
    "PyPDP.C81_same_calculation_partial",
    "PyPDP.C81_counterexample"
   ],
   "note": "false when the ICE object is reset between reads (C81_counterexample); proved for every history without such a reset; C81_exact says for every history what each of the three reads returns (the mean of what the ICE object gave at the first successful read of this array), C81_ice_history what history the ICE object has"
  },
  {
   "property": "C82",
   "status": "proved",
   "theorems": [
    "PyPDP.C82_mean_confidence",
    "PyPDP.C82_bounds",
    "PyPDP.C82_empty"
   ],
   "note": ""
  },
  {
   "property": "C83",
   "status": "proved",
   "theorems": [
    "PyPDP.C83_one",
    "PyPDP.C83_two",
    "PyPDP.C83_other",
    "PyPDP.C83_axis",
    "PyPDP.C83_pdp_one",
    "PyPDP.C83_pdp_two",
    "PyPDP.C83_region",
    "PyPDP.C83_region_one"
   ],
   "note": "numerical hyperparameters, exact reals; what is drawn is a list of shapes (Model/Plotting)"
  },
  {
   "property": "C84",
   "status": "proved",
   "theorems": [
    "PyPDP.C84_one",
    "PyPDP.C84_two",
    "PyPDP.C84_other",
    "PyPDP.C84_pdp_one",
    "PyPDP.C84_pdp_two",
    "PyPDP.C84_region_one"
   ],
   "note": "as C83"
  },
  {
   "property": "C88",
   "status": "proved",
   "theorems": [
    "PyPDP.C88_region",
    "PyPDP.C88_region_other",
    "PyPDP.C88_ice",
    "PyPDP.C88_ice_other",
    "PyPDP.C88_ice_new"
   ],
   "note": "numerical hyperparameters, exact reals"
  },
  {
   "property": "C89",
   "status": "proved",
   "theorems": [
    "PyPDP.C89_leaves",
    "PyPDP.C89_partition",
    "PyPDP.C89_refused"
   ],
   "note": "numerical hyperparameters, exact reals; colours are given (random colours not modelled)"
  },
  {
   "property": "C85",
   "status": "proved",
   "theorems": [
    "PyPDP.C85_means_one",
    "PyPDP.C85_means_two",
    "PyPDP.C85_confidences_one",
    "PyPDP.C85_confidences_two",
    "PyPDP.C85_many",
    "PyPDP.C85_axis"
   ],
   "note": "numerical hyperparameters, exact reals; what is drawn is a list of shapes (Model/Plotting)"
  },
  {
   "property": "C86",
   "status": "proved",
   "theorems": [
    "PyPDP.C86_one",
    "PyPDP.C86_misaligned",
    "PyPDP.C86_two",
    "PyPDP.C86_nothing",
    "PyPDP.C86_missing",
    "PyPDP.C86_other",
    "PyPDP.C86_refused"
   ],
   "note": "argsort is any function that returns a sorting permutation"
  },
  {
   "property": "C87",
   "status": "proved",
   "theorems": [
    "PyPDP.C87_one",
    "PyPDP.C87_two",
    "PyPDP.C87_kind",
    "PyPDP.C87_other",
    "PyPDP.C87_refused"
   ],
   "note": "constants with a number"
  },
  {
   "property": "C90",
   "status": "partial",
   "theorems": [
    "PyPDP.C90_exact_one",
    "PyPDP.C90_exact_two",
    "PyPDP.C90_exact_other",
    "PyPDP.C90_one_partial",
    "PyPDP.C90_two_partial",
    "PyPDP.C90_other_partial",
    "PyPDP.C90_integer_counterexample",
    "PyPDP.C90_before_partition",
    "PyPDP.C90_not_numerical",
    "PyPDP.C90_grown"
   ],
   "note": "false as stated: a selected integer hyperparameter is shown as well (counterexample); true for real-valued selected hyperparameters (_partial). C90_exact_one/_two/_other say what is shown in every case. Hyperparameters are compared without default value and quantisation"
  },
  {
   "property": "C91",
   "status": "partial",
   "theorems": [
    "PyPDP.C91_one_partial",
    "PyPDP.C91_two_partial",
    "PyPDP.C91_other_partial",
    "PyPDP.C91_exact_one",
    "PyPDP.C91_exact_two",
    "PyPDP.C91_exact_other",
    "PyPDP.C91_colours_counterexample",
    "PyPDP.C91_before_partition"
   ],
   "note": "proved with one colour per tree and real-valued selected hyperparameters; with fewer colours trees are silently left out (counterexample); C91_exact_one/_two/_other say what is shown for any colours and any selection"
  },
  {
   "property": "C92",
   "status": "partial",
   "theorems": [
    "PyPDP.C92_curve",
    "PyPDP.C92_optimum_exact",
    "PyPDP.C92_optimum_partial",
    "PyPDP.C92_optimum_counterexample",
    "PyPDP.C92_single",
    "PyPDP.C92_none",
    "PyPDP.C92_refused",
    "PyPDP.C92_many"
   ],
   "note": "the mark of the optimum is at the value of the first hyperparameter of the space, not of the shown one (C92_optimum_counterexample); C92_optimum_exact says where the mark is in every case"
  },
  {
   "property": "C93",
   "status": "proved",
   "theorems": [
    "PyPDP.C93_one",
    "PyPDP.C93_many"
   ],
   "note": ""
  },
  {
   "property": "C94",
   "status": "proved",
   "theorems": [
    "PyPDP.C94_array",
    "PyPDP.C94_array_none",
    "PyPDP.C94_array_single",
    "PyPDP.C94_matrix",
    "PyPDP.C94_matrix_none",
    "PyPDP.C94_matrix_single"
   ],
   "note": ""
  },
  {
   "property": "C95",
   "status": "proved",
   "theorems": [
    "PyPDP.C95_two",
    "PyPDP.C95_one",
    "PyPDP.C95_other"
   ],
   "note": ""
  },
  {
   "property": "C96",
   "status": "partial",
   "theorems": [
    "PyPDP.C96_one_partial",
    "PyPDP.C96_mark_counterexample",
    "PyPDP.C96_name_counterexample",
    "PyPDP.C96_two",
    "PyPDP.C96_many"
   ],
   "note": "False of the code in two ways. ax.plot(value, marker='x') takes the optimal x1 as height over 0, so the last mark is not at the optimum and can lie outside the axis (C96_mark_counterexample). The name x1 is hard-coded: any other name is a KeyError (C96_name_counterexample). Everything else is proved: C96_one_partial; two hyperparameters C96_two; more C96_many."
  },
  {
   "property": "C97",
   "status": "proved",
   "theorems": [
    "PyPDP.C97_square",
    "PyPDP.C97_levy",
    "PyPDP.C97_ackley",
    "PyPDP.C97_cross_in_tray",
    "PyPDP.C97_styblinski_tang"
   ],
   "note": "Formulas stated as sums over Fin d of the published test functions; real arithmetic."
  },
  {
   "property": "C98",
   "status": "proved",
   "theorems": [
    "PyPDP.C98_lightness",
    "PyPDP.C98_direction"
   ],
   "note": "any ordered field with floor; colorsys modelled; the doc string's 'lighter'/'darker' are refuted by C98_direction"
  },
  {
   "property": "C99",
   "status": "proved",
   "theorems": [
    "PyPDP.C99_fit",
    "PyPDP.C99_targets",
    "PyPDP.C99_constant",
    "PyPDP.C99_inputs",
    "PyPDP.C99_uncertainty",
    "PyPDP.C99_positive",
    "PyPDP.C99_training",
    "PyPDP.C99_order",
    "PyPDP.C99_matern",
    "PyPDP.C99_unit",
    "PyPDP.C99_default"
   ],
   "note": "Over the reals, modelling the documented formulas of StandardScaler and GaussianProcessRegressor; the likelihood maximisation is a parameter (any choice of length scale). Units: targets not all equal, no constant column."
  },
  {
   "property": "C100",
   "status": "proved",
   "theorems": [
    "PyPDP.C100_workflow",
    "PyPDP.C100_gaussian"
   ],
   "note": "C100_workflow holds for every row-wise surrogate; C100_gaussian instantiates it with the default Gaussian process fitted to arbitrary data."
  },
  {
   "property": "C101",
   "status": "proved",
   "theorems": [
    "PyPDP.C101_returns",
    "PyPDP.C101_default",
    "PyPDP.C101_acquired_unit",
    "PyPDP.C101_acquired",
    "PyPDP.C101_nothing_to_fit",
    "PyPDP.C101_one_candidate"
   ],
   "note": "Over the reals; likelihood maximisation is a parameter (any length scale), see C99."
  },
  {
   "property": "C102",
   "status": "proved",
   "theorems": [
    "PyPDP.C102_main",
    "PyPDP.C102_one_dimension",
    "PyPDP.C102_figure",
    "PyPDP.C102_points"
   ],
   "note": "Over the reals. The figure is a model of its own (Model/MainFigure, C102_figure); the wrong import of line 13 (`utils.utils`) is read as `pyPDP.utils.utils`. The relative change of the likelihoods is undefined iff the base likelihood is 0 (C64). Without a cache file the evaluated points are characterised too (C102_points): the initial ones are the drawn ones, every later one is the first maximiser of the acquisition function among its candidates, from a Gaussian process fitted to exactly the points before. The plotted curves and mean confidences are given as means of the fitted Gaussian process's predictions over the samples (all, or those in the region)."
  },
  {
   "property": "C103",
   "status": "partial",
   "theorems": [
    "PyPDP.C103_filled_partial",
    "PyPDP.C103_exact",
    "PyPDP.C103_default_counterexample"
   ],
   "note": "False of the code: with the default overlap, and with half the trees (examples/main_random_forest.py), the region can be empty (C103_default_counterexample). Partial: filled whenever (min_incumbent_overlap - 1) * len(samples) < num_trees, in particular for overlap 1; C103_exact: filled if and only if some sample shares the incumbent's leaf in at least that many trees"
  },
  {
   "property": "C104",
   "status": "proved",
   "theorems": [
    "PyPDP.C104_forest_script",
    "PyPDP.C104_points"
   ],
   "note": "Over the reals. The plot of the table (pandas) is not modelled. That nan rows do occur: C103. Without a cache file the evaluated points are characterised too (C104_points): the initial ones are the drawn ones, every later one is the first maximiser of the acquisition function among its candidates, from a Gaussian process fitted to exactly the points before. Every row is given by meaning: trees grown from the draws of the generator, region = the samples that share the incumbent's leaf in at least half of the trees, confidence = mean standard deviation over them."
  },
  {
   "property": "C105",
   "status": "proved",
   "theorems": [
    "PyPDP.C105_paper",
    "PyPDP.C105_points"
   ],
   "note": "f_class = StyblinskiTang; the csv file and the drawing of the figure are not modelled. Without a cache file the evaluated points are characterised too (C105_points): the initial ones are the drawn ones, every later one is the first maximiser of the acquisition function among its candidates, from a Gaussian process fitted to exactly the points before. The plotted curves and mean confidences are given as means of the fitted Gaussian process's predictions over the samples (all, or those in the region)."
  },
  {
   "property": "C106",
   "status": "proved",
   "theorems": [
    "PyPDP.C106_main_2d",
    "PyPDP.C106_points"
   ],
   "note": "Finding: the two figures of the PDP are saved under the same name, the first one is overwritten. Without a cache file the evaluated points are characterised too (C106_points): the initial ones are the drawn ones, every later one is the first maximiser of the acquisition function among its candidates, from a Gaussian process fitted to exactly the points before."
  },
  {
   "property": "C107",
   "status": "proved",
   "theorems": [
    "PyPDP.C107_never",
    "PyPDP.C107_walkthrough"
   ],
   "note": "Finding: ax.annotate is called without its required position, so the last two figures are never saved. Without a cache file the evaluated points are characterised too (OptimisedBy in the statement): the initial ones are the drawn ones, every later one is the first maximiser of the acquisition function among its candidates, from a Gaussian process fitted to exactly the points before."
  },
  {
   "property": "C108",
   "status": "proved",
   "theorems": [
    "PyPDP.C108_calls",
    "PyPDP.C108_illegal",
    "PyPDP.C108_repeatable",
    "PyPDP.C108_get",
    "PyPDP.C108_unseeded"
   ],
   "note": "Contract of HPOBench: with an integer rng the outcome does not depend on the benchmark's own random state (hypothesis Seeded)."
  },
  {
   "property": "C109",
   "status": "partial",
   "theorems": [
    "PyPDP.C109_lags",
    "PyPDP.C109_exact_partial",
    "PyPDP.C109_overestimates",
    "PyPDP.C109_initial",
    "PyPDP.C109_counterexample"
   ],
   "note": "False of the code: exact characterisation, counterexample and consequence proved."
  },
  {
   "property": "C110",
   "status": "proved",
   "theorems": [
    "PyPDP.C110_introduction"
   ],
   "note": ""
  },
  {
   "property": "C111",
   "status": "proved",
   "theorems": [
    "PyPDP.C111_data",
    "PyPDP.C111_empty",
    "PyPDP.C111_appended",
    "PyPDP.C111_script",
    "PyPDP.C111_drawing"
   ],
   "note": ""
  },
  {
   "property": "C112",
   "status": "proved",
   "theorems": [
    "PyPDP.C112_table",
    "PyPDP.C112_missing",
    "PyPDP.C112_appended",
    "PyPDP.C112_positive"
   ],
   "note": ""
  },
  {
   "property": "C113",
   "status": "proved",
   "theorems": [
    "PyPDP.C113_figure",
    "PyPDP.C113_single",
    "PyPDP.C113_missing",
    "PyPDP.C113_appended",
    "PyPDP.C113_repeated"
   ],
   "note": ""
  },
  {
   "property": "C114",
   "status": "partial",
   "theorems": [
    "PyPDP.C114_figure_partial",
    "PyPDP.C114_ground_truth_counterexample",
    "PyPDP.C114_delta_counterexample",
    "PyPDP.C114_no_replications",
    "PyPDP.C114_points"
   ],
   "note": "C114_figure_partial states what is shown, including the two deviations; C114_ground_truth_counterexample: the black line on the right is too low in every run; C114_delta_counterexample: the percentage is the average exactly if both improvements are equal. Missing from the full statement (right ground truth = average of the regions' partial dependences; percentage = average of improvements): both are false. Without a cache file the evaluated points are characterised too (C114_points): the initial ones are the drawn ones, every later one is the first maximiser of the acquisition function among its candidates, from a Gaussian process fitted to exactly the points before."
  },
  {
   "property": "C115",
   "status": "proved",
   "theorems": [
    "PyPDP.C115_function",
    "PyPDP.C115_no_repetitions",
    "PyPDP.C115_shared",
    "PyPDP.C115_optimize",
    "PyPDP.C115_points"
   ],
   "note": "C115_function: value of a call; C115_no_repetitions: nan; C115_shared: a sequence of calls with different kernels uses the points of the first kernel throughout, since the cache key contains only the class of the surrogate (C25_surrogate_counterexample); C115_optimize: the 14 evaluations and the three images. Without a cache file the evaluated points are characterised too (C115_points): the initial ones are the drawn ones, every later one is the first maximiser of the acquisition function among its candidates, from a Gaussian process fitted to exactly the points before."
  },
  {
   "property": "C116",
   "status": "proved",
   "theorems": [
    "PyPDP.C116_figure4",
    "PyPDP.C116_figure2",
    "PyPDP.C116_figure13",
    "PyPDP.C116_figure13_default"
   ],
   "note": "C116_figure13, C116_figure2, C116_figure4. The titles, legends and sizes of the figures are not modelled. Finding: figure_4 calls the region above the threshold left_region, since `leaves` lists the right child first. Without a cache file the evaluated points are characterised too (OptimisedBy in the statement): the initial ones are the drawn ones, every later one is the first maximiser of the acquisition function among its candidates, from a Gaussian process fitted to exactly the points before."
  },
  {
   "property": "C117",
   "status": "proved",
   "theorems": [
    "PyPDP.C117_figure",
    "PyPDP.C117_failures",
    "PyPDP.C117_grid",
    "PyPDP.C117_lcb"
   ],
   "note": "C117_figure, C117_lcb, C117_grid, C117_failures. For the default f_class (StyblinskiTang). The texts of the titles, shared limits and sizes are not modelled."
  },
  {
   "property": "C118",
   "status": "proved",
   "theorems": [
    "PyPDP.C118_rf",
    "PyPDP.C118_svm",
    "PyPDP.C118_svm_many",
    "PyPDP.C118_initial"
   ],
   "note": "C118_svm, C118_rf, C118_initial, C118_svm_many. The benchmark is a parameter with the contract of C108; titles and layout are not modelled."
  },
  {
   "property": "C119",
   "status": "partial",
   "theorems": [
    "PyPDP.C119_iteration",
    "PyPDP.C119_new_object",
    "PyPDP.C119_errors",
    "PyPDP.C119_length_counterexample",
    "PyPDP.C119_equality_counterexample",
    "PyPDP.C119_contains_exact",
    "PyPDP.C119_contains_partial"
   ],
   "note": "Iteration is proved: C119_iteration (any state whose arrays are or can be calculated) and C119_new_object (by the surrogate's mean and deviation). The rest is false of the code: ICECurve is a @dataclass without a single annotated field, so any two curves compare equal and none can be hashed (C119_equality_counterexample), and `c in ice` holds for every curve c as soon as the ICE is not empty (C119_contains_exact; C119_contains_partial is the direction that remains). Iteration stops at the first IndexError, also one raised by the surrogate: then list(ice) is empty although len(ice) > 0 (C119_length_counterexample, C119_errors)."
  },
  {
   "property": "C120",
   "status": "partial",
   "theorems": [
    "PyPDP.C120_lines",
    "PyPDP.C120_function",
    "PyPDP.C120_values",
    "PyPDP.C120_confidences",
    "PyPDP.C120_ice",
    "PyPDP.C120_means",
    "PyPDP.C120_surrogate_confidences",
    "PyPDP.C120_sampler",
    "PyPDP.C120_acquisition",
    "PyPDP.C120_full_pdp",
    "PyPDP.C120_full_bayesian_counterexample",
    "PyPDP.C120_labels",
    "PyPDP.C120_labels_counterexample",
    "PyPDP.C120_nameless_counterexample",
    "PyPDP.C120_region"
   ],
   "note": "Proved for all plot methods and plot_full_pdp. False of plot_full_bayesian: plt.legend() acts on the axis added last, so the legend has the acquisition function and its optimum only, and none of the entries of the surrogate model and the sampled points (counterexample for all inputs). False of factors that are not integers: they get the same label exactly if they agree after rounding to two decimals (C120_labels, counterexample 1.001 and 1.002). A callable without __name__ cannot be plotted over one hyperparameter (counterexample). That Model/Legend draws what the models without labels draw is proved in Lemmas/LegendErase."
  },
  {
   "property": "C121",
   "status": "proved",
   "theorems": [
    "PyPDP.C121_same",
    "PyPDP.C121_nameless",
    "PyPDP.C121_random_grid",
    "PyPDP.C121_bayesian"
   ],
   "note": "C121_same: same points and outcome. C121_nameless: AttributeError. C121_random_grid, C121_bayesian: label, total, counts, every update truthful, end of the call."
  },
  {
   "property": "C122",
   "status": "proved",
   "theorems": [
    "PyPDP.C122_tree",
    "PyPDP.C122_incumbent",
    "PyPDP.C122_measures"
   ],
   "note": "Exact arithmetic: with floating-point sums the order of the samples can change the last digits of a loss and so break a near tie."
  },
  {
   "property": "C123",
   "status": "proved",
   "theorems": [
    "PyPDP.C123_tree"
   ],
   "note": "Exact arithmetic, as for C122."
  },
  {
   "property": "C124",
   "status": "proved",
   "theorems": [
    "PyPDP.C124_path",
    "PyPDP.C124_surrogate",
    "PyPDP.C124_tree"
   ],
   "note": "Exact real arithmetic (as C99): with floating-point numbers a near tie between candidates can be decided differently. The optimiser of the likelihood is a function of the standardised data."
  },
  {
   "property": "C125",
   "status": "proved",
   "theorems": [
    "PyPDP.C125_path"
   ],
   "note": "Exact real arithmetic (as C124). The likelihood of the targets -t is that of t, which is why the optimiser is assumed not to depend on the sign."
  },
  {
   "property": "C126",
   "status": "proved",
   "theorems": [
    "PyPDP.C126_ei",
    "PyPDP.C126_ei_bounds",
    "PyPDP.C126_pi",
    "PyPDP.C126_lcb"
   ],
   "note": ""
  },
  {
   "property": "C127",
   "status": "proved",
   "theorems": [
    "PyPDP.C127_curves",
    "PyPDP.C127_pdp"
   ],
   "note": ""
  },
  {
   "property": "C128",
   "status": "proved",
   "theorems": [
    "PyPDP.C128_consistent",
    "PyPDP.C128_unbiased"
   ],
   "note": "The surrogate is fixed (not fitted to the samples of the PDP). Independence and the common distribution of the samples are hypotheses: how ConfigSpace draws is not modelled."
  },
  {
   "property": "C129",
   "status": "proved",
   "theorems": [
    "PyPDP.C129_shift",
    "PyPDP.C129_limit"
   ],
   "note": "For the limit the coordinates of the samples are assumed to be uniform on [0, 1], as for float hyperparameters in ConfigSpace; integer hyperparameters are only in the first part."
  },
  {
   "property": "C130",
   "status": "proved",
   "theorems": [
    "PyPDP.C130_explained",
    "PyPDP.C130_confidence"
   ],
   "note": ""
  },
  {
   "property": "C131",
   "status": "proved",
   "theorems": [
    "PyPDP.C131_linear",
    "PyPDP.C131_error",
    "PyPDP.C131_rises",
    "PyPDP.C131_irrelevant"
   ],
   "note": ""
  },
  {
   "property": "C132",
   "status": "proved",
   "theorems": [
    "PyPDP.C132_selection_order"
   ],
   "note": ""
  },
  {
   "property": "C133",
   "status": "proved",
   "theorems": [
    "PyPDP.C133_scale_stays",
    "PyPDP.C133_unscale_stays",
    "PyPDP.C133_exact"
   ],
   "note": ""
  },
  {
   "property": "C134",
   "status": "proved",
   "theorems": [
    "PyPDP.C134_tree",
    "PyPDP.C134_curves",
    "PyPDP.C134_best_split",
    "PyPDP.C134_one_leaf",
    "PyPDP.C134_exact",
    "PyPDP.C134_exact_region",
    "PyPDP.C134_curve_elsewhere_counterexample",
    "PyPDP.C134_nan_counterexample"
   ],
   "note": "The two negative parts of the statement: C134_curve_elsewhere_counterexample (C58 needs exact arithmetic), C134_nan_counterexample. That the exact model is an instance: C134_exact, C134_exact_region."
  },
  {
   "property": "C135",
   "status": "proved",
   "theorems": [
    "PyPDP.C135_incumbent",
    "PyPDP.C135_poisoned",
    "PyPDP.C135_optimum",
    "PyPDP.C135_surrogate_incumbent",
    "PyPDP.C135_exact",
    "PyPDP.C135_position_matters"
   ],
   "note": ""
  },
  {
   "property": "C136",
   "status": "partial",
   "theorems": [
    "PyPDP.C136_enough",
    "PyPDP.C136_root_partial",
    "PyPDP.C136_off_by_one",
    "PyPDP.C136_root_counterexample",
    "PyPDP.C136_first_call",
    "PyPDP.C136_full_grid_partial",
    "PyPDP.C136_counterexample"
   ],
   "note": "Fails with floating-point numbers: for 5 hyperparameters and 3125 = 5^5 points, 3125 ** (1 / 5) is rounded up to 5.000000000000001, the grid has 6 steps, and e.g. the quarter point is not evaluated (C136_root_counterexample, C136_counterexample). Proved: in exact arithmetic, and with floating-point numbers for up to four hyperparameters and n (n + d) < 2^53 (C136_full_grid_partial, C136_root_partial); in general the steps are enough (C136_enough) and at most one too many (C136_off_by_one, C136_first_call)."
  },
  {
   "property": "C137",
   "status": "partial",
   "theorems": [
    "PyPDP.C137_float",
    "PyPDP.C137_exact",
    "PyPDP.C137_flat",
    "PyPDP.C137_dtype_partial",
    "PyPDP.C137_dtype_counterexample"
   ],
   "note": "Fails: x_ice has the dtype of the samples, so with an integer array every grid value below 1 is truncated to 0 and the curve is flat up to its last point (C137_dtype_counterexample; C137_exact says what x_ice is for every integer array, C137_flat that two grid points with the same coordinates equal to 1 get the same value and variance). Proved: floats give the curves of C41 (C137_float), and with at most two grid points per axis the type does not matter (C137_dtype_partial)."
  },
  {
   "property": "C138",
   "status": "proved",
   "theorems": [
    "PyPDP.C138_exact",
    "PyPDP.C138_error",
    "PyPDP.C138_variances",
    "PyPDP.C138_unit",
    "PyPDP.C138_loss"
   ],
   "note": "Exponent bounds (overflow, underflow) and nan are not part of the rounding model. C138_exact: with exact arithmetic the rounded model is the model of C45, C55 and C65."
  },
  {
   "property": "C139",
   "status": "partial",
   "theorems": [
    "PyPDP.C139_identical_partial",
    "PyPDP.C139_identical_counterexample"
   ],
   "note": "Fails: for three curves with the constant value 0.1 the average is 0.10000000000000002 (above all curves) and the loss is positive, whatever the order of the additions and the rule for ties (C139_identical_counterexample). Proved for one or two curves, and for values with few significant bits: n times the value fits into 53 bits (C139_identical_partial); in general the difference is bounded by C138_error."
  },
  {
   "property": "C140",
   "status": "partial",
   "theorems": [
    "PyPDP.C140_exact",
    "PyPDP.C140_linear",
    "PyPDP.C140_log_exact",
    "PyPDP.C140_powers_partial",
    "PyPDP.C140_plot",
    "PyPDP.C140_log_counterexample"
   ],
   "note": "Proved for linear hyperparameters (C140_linear, C140_plot). Logarithmic ones: the values are legal exactly if 10 ** log10(lower) >= lower and 10 ** log10(upper) <= upper (C140_log_exact), which holds for bounds that are powers of ten (C140_powers_partial). Fails in general: for the bounds 2^-10 and 2^10 both ends are outside and plot_function of any blackbox function raises ValueError, although the exact plot succeeds (C140_log_counterexample). Exponent bounds (overflow, underflow) are not part of the rounding model. C140_exact: with exact functions this is the model of C07 and C73."
  },
  {
   "property": "C141",
   "status": "partial",
   "theorems": [
    "PyPDP.C141_exact",
    "PyPDP.C141_zero",
    "PyPDP.C141_one",
    "PyPDP.C141_unscale_exact",
    "PyPDP.C141_width_partial",
    "PyPDP.C141_within_partial",
    "PyPDP.C141_bounds_counterexample",
    "PyPDP.C141_integer_counterexample"
   ],
   "note": "Proved for float hyperparameters on logarithmic axes and on linear axes where (upper - lower) + lower does not exceed upper, for instance if upper - lower is a double (C141_unscale_exact, C141_width_partial, C141_within_partial); for integer hyperparameters on linear axes as they occur in ICE objects. Fails for a float between -1 and 0.1: unscale does not clip linear axes and the implied upper bound is 0.10000000000000009 (C141_bounds_counterexample). Fails for an integer between 1 and 128 on a logarithmic axis: exp(log(128)) is below 128 and the constructor raises ValueError (C141_integer_counterexample; check_int of ConfigSpace with its tolerance 1e-8 is a contract). C141_exact: with exact functions and no tolerance this is the model of C47."
  },
  {
   "property": "C142",
   "status": "partial",
   "theorems": [
    "PyPDP.C142_exact",
    "PyPDP.C142_leaf_partial",
    "PyPDP.C142_spacing",
    "PyPDP.C142_grid_counterexample",
    "PyPDP.C142_merged_counterexample"
   ],
   "note": "Proved when the values are computed from the vector (as for random samples) and no threshold below the sample has the same value in natural units (C142_leaf_partial); without the latter every <= condition of the leaf is still satisfied. C142_spacing: on a linear axis it suffices that sample and threshold differ by 2^-49 of the larger bound. Fails for the middle point of a grid over [0.6, 1.5]: the number of 1.05 in the vector is 0.5000000000000001, but the threshold 0.5 in natural units is 1.05, so curve and configuration are in different leaves (C142_grid_counterexample). Fails if two numbers have the same value (C142_merged_counterexample). C142_exact: without rounding this is the exact machine of C133/C134, for which C58 holds."
  },
  {
   "property": "C143",
   "status": "partial",
   "theorems": [
    "PyPDP.C143_side",
    "PyPDP.C143_misplaced_iff",
    "PyPDP.C143_middle",
    "PyPDP.C143_small",
    "PyPDP.C143_always",
    "PyPDP.C143_plot",
    "PyPDP.C143_leaf_partial",
    "PyPDP.C143_leaf_counterexample"
   ],
   "note": "The leaf statement needs that no value is misplaced at a threshold (C143_leaf_partial); C143_leaf_counterexample is a run with n in 0..3 and ten thresholds in which the curve of n=2 is in the left leaf and the configuration n=2 in the right one. Where thresholds really are, and which values are misplaced, is exact (C143_side, C143_misplaced_iff); never at 0.5 (C143_middle), never with at most three values (C143_small), always possible with four (C143_always). ConfigSpace's encoding (Spec/IntegerVectors) is a contract read from version 0.7.1, not checked against its source."
  },
  {
   "property": "C144",
   "status": "proved",
   "theorems": [
    "PyPDP.C144_minimum",
    "PyPDP.C144_maximum",
    "PyPDP.C144_styblinski_tang",
    "PyPDP.C144_cross_in_tray",
    "PyPDP.C144_legal_iff",
    "PyPDP.C144_no_argument"
   ],
   "note": "Combines the construction of the space (C10), the call (C11) and the value functions (C12-C16) into statements about what a user calls. Exact real arithmetic."
  },
  {
   "property": "C145",
   "status": "partial",
   "theorems": [
    "PyPDP.C145_value",
    "PyPDP.C145_normalized",
    "PyPDP.C145_faithful",
    "PyPDP.C145_value_in",
    "PyPDP.C145_counterexample"
   ],
   "note": "For thresholds that are Python floats (all that the partitioner makes) proved in full (C145_value, C145_normalized, C145_faithful). C145_counterexample: a threshold of another type given with less_equal, e.g. the integer 1, reads 'name <= 1' but tests for equality with 1."
  },
  {
   "property": "C146",
   "status": "partial",
   "theorems": [
    "PyPDP.C146_error",
    "PyPDP.C146_condition_partial",
    "PyPDP.C146_lower",
    "PyPDP.C146_exact",
    "PyPDP.C146_counterexample"
   ],
   "note": "C01 and C60 state the round trip exactly in real arithmetic; with doubles it only holds up to rounding (C146_error, C146_condition_partial). C146_counterexample: between 0 and 49 the condition made from value=1 with less_equal has the value 0.9999999999999999 and is not satisfied by x = 1. Logarithmic axes are not covered."
  },
  {
   "property": "C147",
   "status": "proved",
   "theorems": [
    "PyPDP.C147_tiling",
    "PyPDP.C147_smaller"
   ],
   "note": "Real arithmetic. Together with C51 and C59 (exactly one leaf contains a configuration; it contains it iff it lies in the implied box, open below at a threshold) the boxes cover the space without overlap."
  },
  {
   "property": "C148",
   "status": "proved",
   "theorems": [
    "PyPDP.C148_recorded",
    "PyPDP.C148_first_illegal",
    "PyPDP.C148_succeeds_iff"
   ],
   "note": "C20 states alignment for an abstract objective function; here it is the call of a blackbox function with its own config space. The GridSampler is covered by C20 only."
  },
  {
   "property": "C149",
   "status": "proved",
   "theorems": [
    "PyPDP.C149_exact",
    "PyPDP.C149_axis",
    "PyPDP.C149_grid",
    "PyPDP.C149_thresholds",
    "PyPDP.C149_not_nearest"
   ],
   "note": "C40 has the same claims with exact arithmetic. Overflow and underflow of doubles play no part between 0 and 1 for these sizes."
  },
  {
   "property": "C150",
   "status": "partial",
   "theorems": [
    "PyPDP.C150_loss_error",
    "PyPDP.C150_total_partial",
    "PyPDP.C150_choice",
    "PyPDP.C150_total_counterexample"
   ],
   "note": "counterexample C150_total_counterexample; C150_total_partial adds the error term. C56 is the claim with exact arithmetic."
  },
  {
   "property": "C151",
   "status": "partial",
   "theorems": [
    "PyPDP.C151_argument",
    "PyPDP.C151_uncentered",
    "PyPDP.C151_centered",
    "PyPDP.C151_fresh_partial",
    "PyPDP.C151_later_partial",
    "PyPDP.C151_table_counterexample",
    "PyPDP.C151_buffer_counterexample",
    "PyPDP.C151_argument_counterexample"
   ],
   "note": "counterexamples C151_table_counterexample, C151_buffer_counterexample, C151_argument_counterexample; C151_fresh_partial and C151_later_partial assume a surrogate that returns new arrays (PredictsFresh; exists for every predictor, exists_predictsFresh). C151_argument, C151_uncentered, C151_centered hold for every surrogate."
  },
  {
   "property": "C152",
   "status": "proved",
   "theorems": [
    "PyPDP.C152_curve",
    "PyPDP.C152_curve_variances",
    "PyPDP.C152_root",
    "PyPDP.C152_child"
   ],
   "note": ""
  },
  {
   "property": "C153",
   "status": "proved",
   "theorems": [
    "PyPDP.C153_grids",
    "PyPDP.C153_fewer",
    "PyPDP.C153_own_sample",
    "PyPDP.C153_own_values",
    "PyPDP.C153_all_selected"
   ],
   "note": ""
  },
  {
   "property": "C154",
   "status": "proved",
   "theorems": [
    "PyPDP.C154_pdp",
    "PyPDP.C154_tree"
   ],
   "note": ""
  },
  {
   "property": "C155",
   "status": "proved",
   "theorems": [
    "PyPDP.C155_full_draws"
   ],
   "note": ""
  },
  {
   "property": "C156",
   "status": "proved",
   "theorems": [
    "PyPDP.C156_nested",
    "PyPDP.C156_settled",
    "PyPDP.C156_unchanged",
    "PyPDP.C156_deep_enough",
    "PyPDP.C156_boxes"
   ],
   "note": ""
  },
  {
   "property": "C157",
   "status": "proved",
   "theorems": [
    "PyPDP.C157_concentrated",
    "PyPDP.C157_enough",
    "PyPDP.C157_one_sample",
    "PyPDP.C157_further_sample",
    "PyPDP.C157_samples_exist"
   ],
   "note": ""
  },
  {
   "property": "C158",
   "status": "proved",
   "theorems": [
    "PyPDP.C158_lines",
    "PyPDP.C158_once",
    "PyPDP.C158_missing"
   ],
   "note": ""
  },
  {
   "property": "C159",
   "status": "proved",
   "theorems": [
    "PyPDP.C159_symmetric",
    "PyPDP.C159_similarity",
    "PyPDP.C159_same_points",
    "PyPDP.C159_apart",
    "PyPDP.C159_method",
    "PyPDP.C159_refused",
    "PyPDP.C159_same_seed",
    "PyPDP.C159_seed_argument"
   ],
   "note": ""
  },
  {
   "property": "C160",
   "status": "proved",
   "theorems": [
    "PyPDP.C160_stable",
    "PyPDP.C160_incumbent"
   ],
   "note": ""
  },
  {
   "property": "C161",
   "status": "proved",
   "theorems": [
    "PyPDP.C161_tree",
    "PyPDP.C161_incumbent"
   ],
   "note": ""
  },
  {
   "property": "C162",
   "status": "proved",
   "theorems": [
    "PyPDP.C162_helpers",
    "PyPDP.C162_lines",
    "PyPDP.C162_curves",
    "PyPDP.C162_ice",
    "PyPDP.C162_pdp",
    "PyPDP.C162_region",
    "PyPDP.C162_trees",
    "PyPDP.C162_models",
    "PyPDP.C162_together",
    "PyPDP.C162_colours",
    "PyPDP.C162_full_pdp",
    "PyPDP.C162_curve_figure",
    "PyPDP.C162_full_bayesian",
    "PyPDP.C162_after_bayesian",
    "PyPDP.C162_session"
   ],
   "note": ""
  },
  {
   "property": "C163",
   "status": "proved",
   "theorems": [
    "PyPDP.C163_tree",
    "PyPDP.C163_incumbent"
   ],
   "note": ""
  },
  {
   "property": "C164",
   "status": "partial",
   "theorems": [
    "PyPDP.C164_first_split_partial",
    "PyPDP.C164_counterexample_thresholds",
    "PyPDP.C164_counterexample_points",
    "PyPDP.C164_counterexample_hyperparameters"
   ],
   "note": "False beyond the first split (three counterexamples of depth 2); proved: at every depth no worse than the one-level tree with less freedom."
  },
  {
   "property": "C165",
   "status": "proved",
   "theorems": [
    "PyPDP.C165_tree"
   ],
   "note": ""
  },
  {
   "property": "C166",
   "status": "proved",
   "theorems": [
    "PyPDP.C166_scaled",
    "PyPDP.C166_stable"
   ],
   "note": ""
  },
  {
   "property": "C167",
   "status": "proved",
   "theorems": [
    "PyPDP.C167_tree",
    "PyPDP.C167_pdp",
    "PyPDP.C167_split_anyway"
   ],
   "note": ""
  },
  {
   "property": "C168",
   "status": "proved",
   "theorems": [
    "PyPDP.C168_same_division",
    "PyPDP.C168_pdp",
    "PyPDP.C168_on_threshold",
    "PyPDP.C168_tie"
   ],
   "note": ""
  },
  {
   "property": "C169",
   "status": "proved",
   "theorems": [
    "PyPDP.C169_uninformative",
    "PyPDP.C169_first_threshold",
    "PyPDP.C169_recovery"
   ],
   "note": ""
  },
  {
   "property": "C170",
   "status": "proved",
   "theorems": [
    "PyPDP.C170_distribution",
    "PyPDP.C170_enough",
    "PyPDP.C170_converges",
    "PyPDP.C170_draws_exist"
   ],
   "note": "Independence and the common distribution are hypotheses: how ConfigSpace draws is not modelled. Every call asks for at least two points, since a call for one point fails (C26_counterexample)."
  },
  {
   "property": "C171",
   "status": "proved",
   "theorems": [
    "PyPDP.C171_grid_search",
    "PyPDP.C171_lipschitz",
    "PyPDP.C171_incomplete"
   ],
   "note": ""
  },
  {
   "property": "C172",
   "status": "proved",
   "theorems": [
    "PyPDP.C172_band",
    "PyPDP.C172_exists"
   ],
   "note": "That the surrogate's mean and standard deviation are those of the unknown function is the hypothesis; C172_exists shows that such a function exists for every surrogate."
  },
  {
   "property": "C173",
   "status": "proved",
   "theorems": [
    "PyPDP.C173_optimum",
    "PyPDP.C173_incumbent",
    "PyPDP.C173_not_worse",
    "PyPDP.C173_bayesian"
   ],
   "note": "Independence and the common distribution are hypotheses, as in C170. Fewer than two candidates fail (C39_counterexample, C35_counterexample)."
  },
  {
   "property": "C174",
   "status": "proved",
   "theorems": [
    "PyPDP.C174_formula",
    "PyPDP.C174_calibrated",
    "PyPDP.C174_units",
    "PyPDP.C174_delta_any",
    "PyPDP.C174_delta_sign"
   ],
   "note": ""
  },
  {
   "property": "C175",
   "status": "proved",
   "theorems": [
    "PyPDP.C175_weights",
    "PyPDP.C175_near",
    "PyPDP.C175_matern",
    "PyPDP.C175_pdp",
    "PyPDP.C175_more",
    "PyPDP.C175_twice"
   ],
   "note": ""
  },
  {
   "property": "C176",
   "status": "proved",
   "theorems": [
    "PyPDP.C176_std",
    "PyPDP.C176_mean",
    "PyPDP.C176_matern",
    "PyPDP.C176_pdp",
    "PyPDP.C176_curve"
   ],
   "note": ""
  },
  {
   "property": "C177",
   "status": "proved",
   "theorems": [
    "PyPDP.C177_lcb",
    "PyPDP.C177_ei",
    "PyPDP.C177_pi",
    "PyPDP.C177_jump",
    "PyPDP.C177_candidates"
   ],
   "note": ""
  },
  {
   "property": "C178",
   "status": "proved",
   "theorems": [
    "PyPDP.C178_mean",
    "PyPDP.C178_std",
    "PyPDP.C178_pdp",
    "PyPDP.C178_robust"
   ],
   "note": ""
  },
  {
   "property": "C179",
   "status": "proved",
   "theorems": [
    "PyPDP.C179_any",
    "PyPDP.C179_cover",
    "PyPDP.C179_pdp",
    "PyPDP.C179_regret"
   ],
   "note": ""
  },
  {
   "property": "C180",
   "status": "proved",
   "theorems": [
    "PyPDP.C180_two_close",
    "PyPDP.C180_certificate",
    "PyPDP.C180_run",
    "PyPDP.C180_enough"
   ],
   "note": ""
  },
  {
   "property": "C181",
   "status": "proved",
   "theorems": [
    "PyPDP.C181_bounds",
    "PyPDP.C181_stop",
    "PyPDP.C181_certificate",
    "PyPDP.C181_run"
   ],
   "note": ""
  },
  {
   "property": "C182",
   "status": "proved",
   "theorems": [
    "PyPDP.C182_stop",
    "PyPDP.C182_certificate",
    "PyPDP.C182_run",
    "PyPDP.C182_needs_exploration"
   ],
   "note": ""
  },
  {
   "property": "C183",
   "status": "proved",
   "theorems": [
    "PyPDP.C183_uncertain",
    "PyPDP.C183_further",
    "PyPDP.C183_bound",
    "PyPDP.C183_choice"
   ],
   "note": ""
  },
  {
   "property": "C184",
   "status": "proved",
   "theorems": [
    "PyPDP.C184_exact",
    "PyPDP.C184_forest"
   ],
   "note": ""
  },
  {
   "property": "C185",
   "status": "proved",
   "theorems": [
    "PyPDP.C185_random",
    "PyPDP.C185_uniform",
    "PyPDP.C185_transport",
    "PyPDP.C185_matched",
    "PyPDP.C185_cells"
   ],
   "note": ""
  },
  {
   "property": "C186",
   "status": "proved",
   "theorems": [
    "PyPDP.C186_tree"
   ],
   "note": ""
  },
  {
   "property": "C187",
   "status": "proved",
   "theorems": [
    "PyPDP.C187_leaves",
    "PyPDP.C187_likelihood",
    "PyPDP.C187_incumbent"
   ],
   "note": ""
  },
  {
   "property": "C188",
   "status": "proved",
   "theorems": [
    "PyPDP.C188_exponential",
    "PyPDP.C188_moments"
   ],
   "note": ""
  },
  {
   "property": "C189",
   "status": "proved",
   "theorems": [
    "PyPDP.C189_settles",
    "PyPDP.C189_rate"
   ],
   "note": ""
  },
  {
   "property": "C190",
   "status": "proved",
   "theorems": [
    "PyPDP.C190_forest",
    "PyPDP.C190_settles"
   ],
   "note": ""
  },
  {
   "property": "C191",
   "status": "proved",
   "theorems": [
    "PyPDP.C191_majority",
    "PyPDP.C191_default",
    "PyPDP.C191_every_tree",
    "PyPDP.C191_settles"
   ],
   "note": ""
  },
  {
   "property": "C192",
   "status": "proved",
   "theorems": [
    "PyPDP.C192_normal",
    "PyPDP.C192_interval"
   ],
   "note": ""
  },
  {
   "property": "C193",
   "status": "proved",
   "theorems": [
    "PyPDP.C193_tree",
    "PyPDP.C193_likelihood"
   ],
   "note": ""
  },
  {
   "property": "C194",
   "status": "proved",
   "theorems": [
    "PyPDP.C194_tree",
    "PyPDP.C194_margin"
   ],
   "note": ""
  },
  {
   "property": "C195",
   "status": "proved",
   "theorems": [
    "PyPDP.C195_pdp",
    "PyPDP.C195_confidence",
    "PyPDP.C195_function"
   ],
   "note": ""
  },
  {
   "property": "C196",
   "status": "proved",
   "theorems": [
    "PyPDP.C196_one",
    "PyPDP.C196_two"
   ],
   "note": ""
  },
  {
   "property": "C197",
   "status": "proved",
   "theorems": [
    "PyPDP.C197_truth",
    "PyPDP.C197_gp"
   ],
   "note": ""
  },
  {
   "property": "C198",
   "status": "proved",
   "theorems": [
    "PyPDP.C198_leaves"
   ],
   "note": ""
  },
  {
   "property": "C199",
   "status": "proved",
   "theorems": [
    "PyPDP.C199_leaves"
   ],
   "note": ""
  },
  {
   "property": "C200",
   "status": "proved",
   "theorems": [
    "PyPDP.C200_lines",
    "PyPDP.C200_interaction",
    "PyPDP.C200_mean"
   ],
   "note": ""
  },
  {
   "property": "C201",
   "status": "proved",
   "theorems": [
    "PyPDP.C201_plot"
   ],
   "note": ""
  },
  {
   "property": "C202",
   "status": "proved",
   "theorems": [
    "PyPDP.C202_points",
    "PyPDP.C202_shifted",
    "PyPDP.C202_interaction"
   ],
   "note": ""
  },
  {
   "property": "C203",
   "status": "proved",
   "theorems": [
    "PyPDP.C203_band"
   ],
   "note": ""
  },
  {
   "property": "C204",
   "status": "proved",
   "theorems": [
    "PyPDP.C204_incumbent"
   ],
   "note": ""
  },
  {
   "property": "C205",
   "status": "proved",
   "theorems": [
    "PyPDP.C205_incumbent"
   ],
   "note": ""
  },
  {
   "property": "C206",
   "status": "proved",
   "theorems": [
    "PyPDP.C206_band"
   ],
   "note": ""
  },
  {
   "property": "C207",
   "status": "proved",
   "theorems": [
    "PyPDP.C207_lines",
    "PyPDP.C207_meshes"
   ],
   "note": ""
  },
  {
   "property": "C208",
   "status": "proved",
   "theorems": [
    "PyPDP.C208_picture"
   ],
   "note": ""
  }
 ]
}