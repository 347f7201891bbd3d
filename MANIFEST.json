{
 "claims": [
  {
   "property": "C01",
   "status": "proved",
   "theorems": [
    "Limbo.C01_samples_observations_paired",
    "Limbo.C01_paired_after_exception"
   ],
   "note": ""
  },
  {
   "property": "C02",
   "status": "proved",
   "theorems": [
    "Limbo.C02_add_new_sample",
    "Limbo.C02_eval_and_add",
    "Limbo.C02_observations_always_finite",
    "Limbo.C02_optimize_ok_all_finite"
   ],
   "note": ""
  },
  {
   "property": "C03",
   "status": "proved",
   "theorems": [
    "Limbo.C03_best",
    "Limbo.C03_best_monotone",
    "Limbo.C03_best_of_nothing",
    "Limbo.C03_best_with_nan_aggregator"
   ],
   "note": ""
  },
  {
   "property": "C04",
   "status": "proved",
   "theorems": [
    "Limbo.C04_budget_exact",
    "Limbo.C04_terminates"
   ],
   "note": ""
  },
  {
   "property": "C05",
   "status": "proved",
   "theorems": [
    "Limbo.C05_reset_or_resume",
    "Limbo.C05_initialiser_runs",
    "Limbo.C05_zero_iteration_run_repeats_initialiser"
   ],
   "note": ""
  },
  {
   "property": "C06",
   "status": "proved",
   "theorems": [
    "Limbo.C06_model_in_sync",
    "Limbo.C06_model_in_sync_on_return"
   ],
   "note": ""
  },
  {
   "property": "C07",
   "status": "proved",
   "theorems": [
    "Limbo.C07_hp_period",
    "Limbo.C07_hp_never"
   ],
   "note": ""
  },
  {
   "property": "C08",
   "status": "proved",
   "theorems": [
    "Limbo.C08_criteria_short_circuit",
    "Limbo.C08_stops_iff_some_criterion",
    "Limbo.C08_optimize_ends_with_stop",
    "Limbo.C08_max_iterations",
    "Limbo.C08_max_predicted_value"
   ],
   "note": ""
  },
  {
   "property": "C09",
   "status": "proved",
   "theorems": [
    "Limbo.C09_objective_called_in_unit_box",
    "Limbo.C09_random_sampling_rprop",
    "Limbo.C09_grid_search_leaves_unit_box"
   ],
   "note": "The property is conditional on the initialiser and inner optimizer; proved as such and instantiated for RandomSampling+Rprop. With the fallback GridSearch in binary64 the premise fails: C09_grid_search_leaves_unit_box."
  },
  {
   "property": "C10",
   "status": "proved",
   "theorems": [
    "Limbo.C10_logs",
    "Limbo.C10_total_nonneg"
   ],
   "note": ""
  },
  {
   "property": "C11",
   "status": "proved",
   "theorems": [
    "Limbo.C11_no_init",
    "Limbo.C11_random_sampling",
    "Limbo.C11_random_sampling_fresh_draws"
   ],
   "note": ""
  },
  {
   "property": "C12",
   "status": "proved",
   "theorems": [
    "Limbo.C12_grid_sampling_exact",
    "Limbo.C12_grid_sampling_any_arithmetic",
    "Limbo.C12_grid_sampling_binary64_loses_last"
   ],
   "note": "Exact arithmetic: full grid; binary64: bins 9, 11, 18, ... lose the last value (proved witness)."
  },
  {
   "property": "C13",
   "status": "proved",
   "theorems": [
    "Limbo.C13_random_sampling_grid",
    "Limbo.C13_random_sampling_grid_fresh_draws",
    "Limbo.C13_random_sampling_grid_in_bounds",
    "Limbo.C13_grid_size"
   ],
   "note": ""
  },
  {
   "property": "C14",
   "status": "proved",
   "theorems": [
    "Limbo.C14_lhs_latin",
    "Limbo.C14_lhs_in_bounds",
    "Limbo.C14_lhs_initialiser",
    "Limbo.C14_float_upper_edge"
   ],
   "note": "Exact arithmetic; C14_float_upper_edge shows what rounding can do at the upper edge of an interval."
  },
  {
   "property": "C15",
   "status": "proved",
   "theorems": [
    "Limbo.C15_rprop_in_bounds",
    "Limbo.C15_rprop_returns_first_best",
    "Limbo.C15_rprop_budget",
    "Limbo.C15_rprop_never_worse_than_start",
    "Limbo.C15_rprop_step_sizes",
    "Limbo.C15_rprop_moves_uphill",
    "Limbo.C15_rprop_defined"
   ],
   "note": ""
  },
  {
   "property": "C16",
   "status": "proved",
   "theorems": [
    "Limbo.C16_gradient_ascent_in_bounds",
    "Limbo.C16_gradient_ascent_budget",
    "Limbo.C16_gradient_ascent_dimension"
   ],
   "note": ""
  },
  {
   "property": "C17",
   "status": "proved",
   "theorems": [
    "Limbo.C17_adam_in_bounds",
    "Limbo.C17_adam_budget",
    "Limbo.C17_adam_operands_admissible"
   ],
   "note": ""
  },
  {
   "property": "C18",
   "status": "proved",
   "theorems": [
    "Limbo.C18_grid_search_optimum_any_arithmetic",
    "Limbo.C18_grid_search_optimum",
    "Limbo.C18_grid_search_optimum_real",
    "Limbo.C18_grid_search_uninitialised"
   ],
   "note": ""
  },
  {
   "property": "C19",
   "status": "partial",
   "theorems": [
    "Limbo.C19_grid_search_in_bounds_exact",
    "Limbo.C19_grid_search_leaves_bounds_binary64",
    "Limbo.C19_grid_search_in_bounds_partial"
   ],
   "note": "Proved in exact arithmetic; in binary64 the claim is false for bins such as 6, 7, 10 (proved negation)."
  },
  {
   "property": "C20",
   "status": "proved",
   "theorems": [
    "Limbo.C20_parallel_repeater_best",
    "Limbo.C20_parallel_repeater_schedule_independent",
    "Limbo.C20_parallel_repeater_starts_near"
   ],
   "note": ""
  },
  {
   "property": "C21",
   "status": "proved",
   "theorems": [
    "Limbo.C21_chained_composition",
    "Limbo.C21_chained_keeps_last_guarantee",
    "Limbo.C21_chained_never_worse",
    "Limbo.C21_random_point"
   ],
   "note": ""
  },
  {
   "property": "C22",
   "status": "proved",
   "theorems": [
    "Limbo.C22_history",
    "Limbo.C22_fresh_object",
    "Limbo.C22_bounds_persist",
    "Limbo.C22_other_dimension",
    "Limbo.C22_early_constraints_ignored",
    "Limbo.C22_stays_in_unit_box",
    "Limbo.C22_objective_is_users"
   ],
   "note": "NLopt is an arbitrary function of the problem it is given. Bounds, dimension and constraints of a re-used object: C22_history, C22_bounds_persist, C22_other_dimension."
  },
  {
   "property": "C23",
   "status": "proved",
   "theorems": [
    "Limbo.C23_maximises",
    "Limbo.C23_bounded",
    "Limbo.C23_unbounded",
    "Limbo.C23_dimension_zero_ub",
    "Limbo.C23_returned",
    "Limbo.C23_documented",
    "Limbo.C23_target",
    "Limbo.C23_initial_step",
    "Limbo.C23_tolerance_at_zero"
   ],
   "note": "libcmaes is a parameter: maximisation assumes that the library's best candidate is the best one it evaluated, the box part that its transformation keeps to the bounds it is given. The settings are the result of the sequence of setter calls. Differences to the documented table at exactly 0: C23_tolerance_at_zero; dimension 0 is undefined: C23_dimension_zero_ub."
  },
  {
   "property": "C24",
   "status": "proved",
   "theorems": [
    "Limbo.C24_par_max_is_maximum",
    "Limbo.C24_par_max_schedule_independent",
    "Limbo.C24_par_max_with_nan",
    "Limbo.C24_ties_depend_on_schedule"
   ],
   "note": ""
  },
  {
   "property": "C25",
   "status": "proved",
   "theorems": [
    "Limbo.C25_loop_commuting",
    "Limbo.C25_loop_disjoint_locations",
    "Limbo.C25_for_each_disjoint_locations",
    "Limbo.C25_replicate",
    "Limbo.C25_loop_mutex_append",
    "Limbo.C25_sort_agrees"
   ],
   "note": "par::loop, for_each, replicate for every schedule; par::sort is std::sort / tbb and is not modelled beyond its contract."
  },
  {
   "property": "C26",
   "status": "proved",
   "theorems": [
    "Limbo.C26_incremental_equals_batch",
    "Limbo.C26_history_independent"
   ],
   "note": ""
  },
  {
   "property": "C27",
   "status": "proved",
   "theorems": [
    "Limbo.C27_mu_is_posterior_mean",
    "Limbo.C27_sigma_is_posterior_variance"
   ],
   "note": ""
  },
  {
   "property": "C28",
   "status": "proved",
   "theorems": [
    "Limbo.C28_query_is_mu_sigma",
    "Limbo.C28_empty_is_prior"
   ],
   "note": ""
  },
  {
   "property": "C29",
   "status": "proved",
   "theorems": [
    "Limbo.C29_variance_bounds"
   ],
   "note": ""
  },
  {
   "property": "C30",
   "status": "proved",
   "theorems": [
    "Limbo.C30_variance_decreases"
   ],
   "note": ""
  },
  {
   "property": "C31",
   "status": "proved",
   "theorems": [
    "Limbo.C31_order_irrelevant"
   ],
   "note": ""
  },
  {
   "property": "C32",
   "status": "proved",
   "theorems": [
    "Limbo.C32_cached_inverse",
    "Limbo.C32_never_stale",
    "Limbo.C32_recompute_restores",
    "Limbo.C32_stale_after_load"
   ],
   "note": "Proved for every history in which load(recompute=false) and compute(..., compute_kernel=false) do not leave the flag set (CacheSafe); the load(false) exception is a proved witness."
  },
  {
   "property": "C33",
   "status": "proved",
   "theorems": [
    "Limbo.C33_log_likelihood",
    "Limbo.C33_log_likelihood_outputs"
   ],
   "note": ""
  },
  {
   "property": "C34",
   "status": "proved",
   "theorems": [
    "Limbo.C34_kernel_gradient_of_likelihood",
    "Limbo.C34_at_current_parameters"
   ],
   "note": ""
  },
  {
   "property": "C35",
   "status": "proved",
   "theorems": [
    "Limbo.C35_mean_gradient_of_likelihood",
    "Limbo.C35_at_current_parameters"
   ],
   "note": ""
  },
  {
   "property": "C36",
   "status": "proved",
   "theorems": [
    "Limbo.C36_leave_one_out"
   ],
   "note": ""
  },
  {
   "property": "C37",
   "status": "proved",
   "theorems": [
    "Limbo.C37_gradient_of_leave_one_out",
    "Limbo.C37_at_current_parameters"
   ],
   "note": ""
  },
  {
   "property": "C38",
   "status": "proved",
   "theorems": [
    "Limbo.C38_kernel_lf_opt",
    "Limbo.C38_kernel_loo_opt",
    "Limbo.C38_mean_lf_opt",
    "Limbo.C38_kernel_mean_lf_opt",
    "Limbo.C38_mean_without_parameters_fails"
   ],
   "note": "Exact arithmetic. MeanLFOpt / KernelMeanLFOpt with a parameterless mean (NullFunction, Data) fail an assertion: C38_mean_without_parameters_fails."
  },
  {
   "property": "C39",
   "status": "proved",
   "theorems": [
    "Limbo.C39_kernel_lf_opt",
    "Limbo.C39_kernel_loo_opt",
    "Limbo.C39_mean_lf_opt",
    "Limbo.C39_kernel_mean_lf_opt"
   ],
   "note": "For any optimizer; GP level. The multi-output variant is C67."
  },
  {
   "property": "C40",
   "status": "proved",
   "theorems": [
    "Limbo.C40_binary_directory",
    "Limbo.C40_text_directory",
    "Limbo.C40_save_load"
   ],
   "note": "The state level, and a directory of files in the binary or the text format (composition with C54 and C55)."
  },
  {
   "property": "C41",
   "status": "proved",
   "theorems": [
    "Limbo.C41_recompute_is_fresh_fit",
    "Limbo.C41_recompute_idempotent",
    "Limbo.C41_partial_recompute_suffices"
   ],
   "note": ""
  },
  {
   "property": "C42",
   "status": "proved",
   "theorems": [
    "Limbo.C42_symmetric_positive_bounded",
    "Limbo.C42_noise_only_on_diagonal",
    "Limbo.C42_initial_variance"
   ],
   "note": ""
  },
  {
   "property": "C43",
   "status": "proved",
   "theorems": [
    "Limbo.C43_fit_never_fails",
    "Limbo.C43_add_sample_never_fails",
    "Limbo.C43_gram_positive_definite"
   ],
   "note": ""
  },
  {
   "property": "C44",
   "status": "proved",
   "theorems": [
    "Limbo.C44_kernel_gradient",
    "Limbo.C44_gradient_at_current_parameters"
   ],
   "note": ""
  },
  {
   "property": "C45",
   "status": "proved",
   "theorems": [
    "Limbo.C45_kernel_parameters",
    "Limbo.C45_kernel_copy",
    "Limbo.C45_mean_parameters"
   ],
   "note": ""
  },
  {
   "property": "C46",
   "status": "proved",
   "theorems": [
    "Limbo.C46_mean_values",
    "Limbo.C46_function_ard_starts_as_inner",
    "Limbo.C46_function_ard_value",
    "Limbo.C46_mean_gradient"
   ],
   "note": ""
  },
  {
   "property": "C47",
   "status": "proved",
   "theorems": [
    "Limbo.C47_mu_is_posterior_mean",
    "Limbo.C47_sigma_is_posterior_variance",
    "Limbo.C47_dimensions",
    "Limbo.C47_query_is_mu_sigma",
    "Limbo.C47_bank_of_gps",
    "Limbo.C47_empty_is_prior"
   ],
   "note": ""
  },
  {
   "property": "C48",
   "status": "proved",
   "theorems": [
    "Limbo.C48_incremental_equals_batch",
    "Limbo.C48_data_mean_differs"
   ],
   "note": "True for means that ignore the data (null, constant, FunctionARD of these); C48_data_mean_differs is the proved counter-example for mean::Data."
  },
  {
   "property": "C49",
   "status": "proved",
   "theorems": [
    "Limbo.C49_full_recompute",
    "Limbo.C49_kernel_recompute",
    "Limbo.C49_recompute_keeps_weights",
    "Limbo.C49_recompute_true_false_is_stale"
   ],
   "note": "recompute(true,true) is fresh; recompute(true,false) is proved stale (what it does in general, and a concrete counter-example)."
  },
  {
   "property": "C50",
   "status": "proved",
   "theorems": [
    "Limbo.C50_bounded_sublist",
    "Limbo.C50_overflow_keeps_too_many",
    "Limbo.C50_small_limit_is_undefined",
    "Limbo.C50_compute",
    "Limbo.C50_add_sample"
   ],
   "note": "Thinning: any IEEE-like number type, distance function, schedule and uninitialised diagonal, under max_points >= dim and no overflow; both conditions are shown necessary. GP level: exact reals."
  },
  {
   "property": "C51",
   "status": "proved",
   "theorems": [
    "Limbo.C51_removes_most_crowded",
    "Limbo.C51_diagonal_irrelevant",
    "Limbo.C51_ties_depend_on_schedule"
   ],
   "note": "Same setting as C50; ties are schedule dependent (proved witness)."
  },
  {
   "property": "C52",
   "status": "proved",
   "theorems": [
    "Limbo.C52_ucb",
    "Limbo.C52_ucb_monotone",
    "Limbo.C52_gp_ucb",
    "Limbo.C52_gp_ucb_first_iteration_is_nan"
   ],
   "note": "Exact reals plus NaN/infinities. At iteration 0 GP-UCB is NaN for every model and point: C52_gp_ucb_first_iteration_is_nan."
  },
  {
   "property": "C53",
   "status": "proved",
   "theorems": [
    "Limbo.C53_expected_improvement",
    "Limbo.C53_zero",
    "Limbo.C53_nonneg",
    "Limbo.C53_gp",
    "Limbo.C53_stale_after_model_change"
   ],
   "note": "erfc is modelled by its integral; the identity with the Gaussian expectation is proved. Stale best value when the model changes but not its size: C53_stale_after_model_change."
  },
  {
   "property": "C54",
   "status": "proved",
   "theorems": [
    "Limbo.C54_matrix_roundtrip",
    "Limbo.C54_vector_roundtrip",
    "Limbo.C54_list_roundtrip",
    "Limbo.C54_other_objects_untouched",
    "Limbo.C54_empty_list_refused",
    "Limbo.C54_missing_matrix_is_empty"
   ],
   "note": "Byte level, little-endian, file system as a map from paths to bytes; writes succeed."
  },
  {
   "property": "C55",
   "status": "proved",
   "theorems": [
    "Limbo.C55_matrix_roundtrip",
    "Limbo.C55_list_roundtrip",
    "Limbo.C55_unreadable_number_fails",
    "Limbo.C55_missing_or_empty_refused",
    "Limbo.C55_other_objects_untouched",
    "Limbo.C55_empty_matrix_changes_shape",
    "Limbo.C55_short_line_is_accepted",
    "Limbo.C55_text_is_lossy"
   ],
   "note": "For every number formatter whose output has no separators; exactness fails for 15- or 16-digit printing (C55_text_is_lossy)."
  },
  {
   "property": "C56",
   "status": "proved",
   "theorems": [
    "Limbo.C56_signum",
    "Limbo.C56_signum_real",
    "Limbo.C56_signum_unsigned",
    "Limbo.C56_is_nan_or_inf",
    "Limbo.C56_make_vector",
    "Limbo.C56_param_array",
    "Limbo.C56_param_array_limit"
   ],
   "note": ""
  },
  {
   "property": "C57",
   "status": "proved",
   "theorems": [
    "Limbo.C57_pareto_set",
    "Limbo.C57_pareto_set_schedule_independent",
    "Limbo.C57_sort_2objs_partial",
    "Limbo.C57_sort_2objs_wrong_with_ties"
   ],
   "note": "pareto_set fully proved; for the two-objective fast path see C57_sort_2objs_partial and its proved counterexample with ties."
  },
  {
   "property": "C58",
   "status": "proved",
   "theorems": [
    "Limbo.C58_dominate_decides",
    "Limbo.C58_dominate_flag",
    "Limbo.C58_dominance_strict_order",
    "Limbo.C58_nan_cycle"
   ],
   "note": ""
  },
  {
   "property": "C59",
   "status": "partial",
   "theorems": [
    "Limbo.C59_without_reader_models_are_stale",
    "Limbo.C59_false",
    "Limbo.C59_with_reader",
    "Limbo.C59_in_sync_if_all_feasible_partial",
    "Limbo.C59_false_with_reader",
    "Limbo.C59_without_initial_data_undefined"
   ],
   "note": "The property as a user expects it is false: C59_false (nobody looks) and C59_false_with_reader (infeasible point). Proved: exactly which data the two models hold in both situations, and the property itself when a statistic looks and every observation is feasible."
  },
  {
   "property": "C60",
   "status": "partial",
   "theorems": [
    "Limbo.C60_best_observation",
    "Limbo.C60_best_sample_partial",
    "Limbo.C60_false",
    "Limbo.C60_false_reachable",
    "Limbo.C60_false_infeasible_sample",
    "Limbo.C60_no_constraints_undefined"
   ],
   "note": "best_observation proved; best_sample is wrong in general (C60_false, C60_false_reachable, C60_false_infeasible_sample), right when no infeasible point precedes a feasible one."
  },
  {
   "property": "C61",
   "status": "proved",
   "theorems": [
    "Limbo.C61_scalarisation",
    "Limbo.C61_unique",
    "Limbo.C61_calls_succeed",
    "Limbo.C61_monotone",
    "Limbo.C61_zero_weights_nan",
    "Limbo.C61_no_add_after_load"
   ],
   "note": "Exact reals. A random vector with sum zero gives NaN (C61_zero_weights_nan); after load no sample can be added (C61_no_add_after_load)."
  },
  {
   "property": "C62",
   "status": "proved",
   "theorems": [
    "Limbo.C62_tiling",
    "Limbo.C62_tiling_first",
    "Limbo.C62_resumed_cells",
    "Limbo.C62_evaluated",
    "Limbo.C62_defined",
    "Limbo.C62_resumed_overlaps",
    "Limbo.C62_estimate_kept",
    "Limbo.C62_resumed_after_failure_ub"
   ],
   "note": "Exact reals. Not shown: that a run ends (a pass need not evaluate anything), and rounding of the borders. Failures proved: C62_resumed_overlaps, C62_resumed_after_failure_ub, C62_estimate_kept."
  },
  {
   "property": "C63",
   "status": "proved",
   "theorems": [
    "Limbo.C63_product",
    "Limbo.C63_feasibility_is_probability",
    "Limbo.C63_zero",
    "Limbo.C63_between_zero_and_ei"
   ],
   "note": "For every pair of models and every history of calls."
  },
  {
   "property": "C64",
   "status": "proved",
   "theorems": [
    "Limbo.C64_isotropic_formula",
    "Limbo.C64_ard_formula"
   ],
   "note": ""
  },
  {
   "property": "C65",
   "status": "proved",
   "theorems": [
    "Limbo.C65_dimensions",
    "Limbo.C65_data",
    "Limbo.C65_calls_succeed",
    "Limbo.C65_max_mean_observation"
   ],
   "note": ""
  },
  {
   "property": "C66",
   "status": "proved",
   "theorems": [
    "Limbo.C66_save_load",
    "Limbo.C66_binary_directory",
    "Limbo.C66_text_directory"
   ],
   "note": "The state level, and a directory with one sub-directory per sub-model in the binary or the text format (composition with C54 and C55)."
  },
  {
   "property": "C67",
   "status": "proved",
   "theorems": [
    "Limbo.C67_parallel_lf_opt"
   ],
   "note": "Exact arithmetic; sub-models are optimised independently (the parallel loop touches disjoint objects)."
  },
  {
   "property": "C68",
   "status": "proved",
   "theorems": [
    "Limbo.C68_alone_is_ei",
    "Limbo.C68_warm_cache_is_safe",
    "Limbo.C68_fresh_object_races"
   ],
   "note": "Sequentially consistent interleavings (generous: in C++ the race is undefined behaviour). C68_fresh_object_races is the negation for a fresh object, C68_alone_is_ei ties the thread model to the function."
  },
  {
   "property": "C69",
   "status": "proved",
   "theorems": [
    "Limbo.C69_one_file_at_most_is_damaged",
    "Limbo.C69_crash_mixes_versions",
    "Limbo.C69_truncated_file_loads_uninitialised_memory"
   ],
   "note": "Crash = any prefix of the file writes plus any prefix of the next file; file writes are not reordered."
  },
  {
   "property": "C70",
   "status": "proved",
   "theorems": [
    "Limbo.C70_samples_observations_paired",
    "Limbo.C70_budget"
   ],
   "note": "Any number type."
  },
  {
   "property": "C71",
   "status": "proved",
   "theorems": [
    "Limbo.C71_budget",
    "Limbo.C71_data"
   ],
   "note": "Exact reals; optimize calls with reset=true. C62_resumed_overlaps shows a resumed run storing a pair the objective did not return. The budget may be exceeded (exIm_run: 3 evaluations for MaxIterations(2))."
  },
  {
   "property": "C72",
   "status": "proved",
   "theorems": [
    "Limbo.C72_pareto_data",
    "Limbo.C72_defined",
    "Limbo.C72_undefined",
    "Limbo.C72_after_ehvi",
    "Limbo.C72_stale_after_ehvi"
   ],
   "note": "Pareto set of the data for every history; the stale set after an EHVI run is proved with a concrete witness."
  },
  {
   "property": "C73",
   "status": "proved",
   "theorems": [
    "Limbo.C73_models",
    "Limbo.C73_defined",
    "Limbo.C73_longer_observation_ub",
    "Limbo.C73_after_run"
   ],
   "note": "One model per objective over the model interface (LawfulModel); stale by one evaluation after a run."
  },
  {
   "property": "C74",
   "status": "proved",
   "theorems": [
    "Limbo.C74_every_evaluation",
    "Limbo.C74_nsbo_every_evaluation",
    "Limbo.C74_zero_vector"
   ],
   "note": "Hypervolume computation, inner optimizer and Sferes are oracles; the zero-vector evaluation is proved with a concrete witness."
  },
  {
   "property": "C75",
   "status": "proved",
   "theorems": [
    "Limbo.C75_samples_observations_paired",
    "Limbo.C75_budget",
    "Limbo.C75_no_initial_sample_ub",
    "Limbo.C75_nsbo_without_sferes",
    "Limbo.C75_nsbo_needs_two_objectives",
    "Limbo.C75_objective_called_in"
   ],
   "note": "Histories with failures; undefined cases are proved undefined."
  },
  {
   "property": "C76",
   "status": "proved",
   "theorems": [
    "Limbo.C76_run",
    "Limbo.C76_never",
    "Limbo.C76_both_models"
   ],
   "note": "Run equals an explicit sequence of rounds and iterations; hyper-parameter optimizations on both models."
  },
  {
   "property": "C77",
   "status": "proved",
   "theorems": [
    "Limbo.Spgp.C77_spgp_predictions",
    "Limbo.Spgp.C77_spgp_batch"
   ],
   "note": "Exact reals; LLT with its contract, the optimizer is any function; Eigen size checks modelled as failures."
  },
  {
   "property": "C78",
   "status": "proved",
   "theorems": [
    "Limbo.Spgp.C78_spgp_objective"
   ],
   "note": "Value equals the log marginal likelihood up to the integer division of n - m, which is part of the statement."
  },
  {
   "property": "C79",
   "status": "proved",
   "theorems": [
    "Limbo.Spgp.C79_spgp_gradient",
    "Limbo.Spgp.C79_spgp_gradient_odd"
   ],
   "note": "Every component; the odd case is proved to be off by 1/2 from the returned value."
  },
  {
   "property": "C80",
   "status": "proved",
   "theorems": [
    "Limbo.Spgp.C80_spgp_samples"
   ],
   "note": "All constructors and histories."
  },
  {
   "property": "C81",
   "status": "proved",
   "theorems": [
    "Limbo.Spgp.C81_spgp_start",
    "Limbo.Spgp.C81_spgp_start_not_samples"
   ],
   "note": "Exact start vector; the mixing of coordinates is proved with a concrete witness (2 pseudo-inputs of 2 coordinates)."
  },
  {
   "property": "C82",
   "status": "proved",
   "theorems": [
    "Limbo.Spgp.C82_spgp_returns",
    "Limbo.Spgp.C82_spgp_one_output",
    "Limbo.Spgp.C82_spgp_add_only"
   ],
   "note": "Exact condition (iff); log 0 counts as not returning normally, because the C++ continues with infinities."
  },
  {
   "property": "C83",
   "status": "proved",
   "theorems": [
    "Limbo.Spgp.C83_spgp_sigma",
    "Limbo.Spgp.C83_spgp_not_computed"
   ],
   "note": "The undefined cases are proved undefined."
  },
  {
   "property": "C84",
   "status": "proved",
   "theorems": [
    "Limbo.Spgp.C84_spgp_optimize_stale",
    "Limbo.Spgp.C84_spgp_optimize_wrong_sign"
   ],
   "note": "Exact description of the stale mean, and a concrete case with the wrong sign."
  },
  {
   "property": "C85",
   "status": "proved",
   "theorems": [
    "Limbo.C85_filter"
   ],
   "note": "Level A: holds for doubles."
  },
  {
   "property": "C86",
   "status": "proved",
   "theorems": [
    "Limbo.C86_hypervolume",
    "Limbo.C86_one_objective",
    "Limbo.C86_below_reference"
   ],
   "note": "Exact reals (Lebesgue measure); the two failing cases are proved."
  },
  {
   "property": "C87",
   "status": "proved",
   "theorems": [
    "Limbo.C87_hyper_volume_stat",
    "Limbo.C87_too_many_objectives"
   ],
   "note": "Exact reals; formatting of the row is abstract."
  },
  {
   "property": "C88",
   "status": "proved",
   "theorems": [
    "Limbo.C88_ehvi2d",
    "Limbo.C88_ehvi2d_source",
    "Limbo.C88_below_reference"
   ],
   "note": "Exact real arithmetic; integrals as in Mathlib. C88_ehvi2d: exact constants; C88_ehvi2d_source: the constants of the source, with an error bound; C88_below_reference: the precondition is needed. Zero deviations (division by zero) are excluded; std::sort is any permutation sorted by the first objective."
  },
  {
   "property": "C89",
   "status": "proved",
   "theorems": [
    "Limbo.C89_population",
    "Limbo.C89_variance_as_deviation",
    "Limbo.C89_not_expected_improvement"
   ],
   "note": "The documented intent (expected improvement under the predictions) is false: C89_not_expected_improvement; C89_variance_as_deviation says what is computed instead."
  },
  {
   "property": "C90",
   "status": "proved",
   "theorems": [
    "Limbo.C90_predictions_from_all_data",
    "Limbo.C90_on_return"
   ],
   "note": "Exact real arithmetic in the GP; a NaN or infinite sample coordinate that reaches the GP is outside the model."
  },
  {
   "property": "C91",
   "status": "proved",
   "theorems": [
    "Limbo.C91_no_undefined_behaviour",
    "Limbo.C91_optimize_ends",
    "Limbo.C91_every_history_runs",
    "Limbo.C91_rprop_kernel_opt_never_fails"
   ],
   "note": "Exact real arithmetic in the GP, so the Cholesky factor always exists; memory exhaustion is not modelled."
  },
  {
   "property": "C92",
   "status": "proved",
   "theorems": [
    "Limbo.C92_prediction_differences",
    "Limbo.C92_acquisitions",
    "Limbo.C92_hparams",
    "Limbo.C92_gp_map",
    "Limbo.C92_console",
    "Limbo.C92_statistics_never_fail"
   ],
   "note": "Exact real arithmetic inside the GP; text formatting and file names are not modelled; stat::GPLikelihood does not compile and has no model. After a reset stat::GP overwrites the files with the same numbers: the model lists all files ever written."
  },
  {
   "property": "C93",
   "status": "proved",
   "theorems": [
    "Limbo.C93_ucb",
    "Limbo.C93_gp_ucb_grid_search_undefined",
    "Limbo.C93_gp_ucb_grid_search_first_iteration",
    "Limbo.C93_gp_ucb",
    "Limbo.C93_ei",
    "Limbo.C93_ei_grid_search_never_fails"
   ],
   "note": "Exact real arithmetic. EI objects are rebuilt in each iteration; the single-threaded value does not depend on the cache (C53). For GP_UCB the property is false of the code in iteration 0: C93_gp_ucb_grid_search_undefined proves it; C93_gp_ucb is the statement for iterations from 1 on."
  },
  {
   "property": "C94",
   "status": "proved",
   "theorems": [
    "Limbo.Bench.C94_sphere_solution",
    "Limbo.Bench.C94_ellipsoid_solution",
    "Limbo.Bench.C94_rastrigin_solution",
    "Limbo.Bench.C94_goldstein_price_solution",
    "Limbo.Bench.C94_accuracy_is_regret",
    "Limbo.Bench.C94_branin_solutions",
    "Limbo.Bench.C94_branin_accuracy",
    "Limbo.Bench.C94_branin_third_not_optimal",
    "Limbo.Bench.C94_six_hump_camel_accuracy",
    "Limbo.Bench.C94_six_hump_camel_not_optimal"
   ],
   "note": "Exact reals, M_PI taken as π. Hartmann3 and Hartmann6 are not covered (their listed optima are rounded and their minima have no closed form). The refutations concern the rounded solutions of BraninNormalized and SixHumpCamel."
  },
  {
   "property": "C95",
   "status": "proved",
   "theorems": [
    "Limbo.C95_hyper_parameters_survive",
    "Limbo.C95_last_setting",
    "Limbo.C95_default_constructor_forgets",
    "Limbo.C95_dimension_change_resets"
   ],
   "note": "The forgetting of the default constructor is a theorem (C95_default_constructor_forgets); BOptimizer always constructs its model with dimensions, so it is not affected."
  },
  {
   "property": "C96",
   "status": "proved",
   "theorems": [
    "Limbo.C96_first_fit_without_kernel",
    "Limbo.C96_old_predictions",
    "Limbo.C96_stale_prediction",
    "Limbo.C96_recompute_repairs"
   ],
   "note": "Describes the code as it is; the surprising part (stale predictions, no error) is shown by C96_old_predictions and the witness C96_stale_prediction."
  },
  {
   "property": "C97",
   "status": "proved",
   "theorems": [
    "Limbo.Res.C97_directory_identifies",
    "Limbo.Res.C97_long_host_name",
    "Limbo.Res.C97_logs_do_not_mix",
    "Limbo.Res.C97_same_directory_erases"
   ],
   "note": "The file system is a map from paths to contents; a stream has its own position, as in C++. Processes, threads and objects are interleaved at the granularity of one call of a statistic (the stream is flushed with std::endl); partial writes inside a call are not modelled. Two local times that read the same (end of daylight saving time) are the same time here."
  },
  {
   "property": "C98",
   "status": "proved",
   "theorems": [
    "Limbo.Ascent.C98_gradient_ascent_converges",
    "Limbo.Ascent.C98_momentum",
    "Limbo.Ascent.C98_parameters_checked"
   ],
   "note": "Exact arithmetic (reals with IEEE special values), the same generic model as C16. Rounding is not covered. Convergence with momentum is not claimed."
  },
  {
   "property": "C99",
   "status": "proved",
   "theorems": [
    "Limbo.Ascent.C99_adam_trajectory",
    "Limbo.Ascent.C99_adam_linear"
   ],
   "note": "Exact arithmetic, the same generic model as C17."
  },
  {
   "property": "C100",
   "status": "proved",
   "theorems": [
    "Limbo.C100_ucb_imgpo",
    "Limbo.C100_ucb_imgpo_failure_probability",
    "Limbo.C100_ucb_imgpo_nan",
    "Limbo.C100_gp_ucb_failure_probability"
   ],
   "note": "The posterior is taken as the true law of the objective at the queried point, as the acquisition functions do. That IMGPO uses each M once is not claimed: it does not (see DESIGN section 5). M_PI is taken to be exactly pi."
  },
  {
   "property": "C101",
   "status": "proved",
   "theorems": [
    "Limbo.C101_data_and_variances",
    "Limbo.C101_mean_predictions",
    "Limbo.C101_on_return",
    "Limbo.C101_data_mean_wrong"
   ],
   "note": "Stated for mean functions that ignore the observations; for mean::Data the negation is proved (C101_data_mean_wrong), data and variances hold for every mean."
  },
  {
   "property": "C102",
   "status": "proved",
   "theorems": [
    "Limbo.C102_fitted_to_part_of_data",
    "Limbo.C102_on_return",
    "Limbo.C102_newest_may_be_ignored"
   ],
   "note": ""
  },
  {
   "property": "C103",
   "status": "proved",
   "theorems": [
    "Limbo.C103_error_bound",
    "Limbo.C103_error_bars",
    "Limbo.C103_at_observed_points",
    "Limbo.C103_near_observed_points"
   ],
   "note": "Exact real arithmetic. Proved from the GP refinement theorems (C27) by a variational bound for the posterior variance and Cauchy-Schwarz for the kernel's semi-inner product."
  },
  {
   "property": "C104",
   "status": "proved",
   "theorems": [
    "Limbo.C104_next_point",
    "Limbo.C104_converges",
    "Limbo.C104_first_run"
   ],
   "note": "Exact real arithmetic. C104_next_point (each decision), C104_converges (any history, given that optimize returned), C104_first_run (the first run returns and meets the bound)."
  },
  {
   "property": "C105",
   "status": "proved",
   "theorems": [
    "Limbo.C105_multi_no_undefined_behaviour",
    "Limbo.C105_multi_optimize_ends",
    "Limbo.C105_multi_every_history_runs",
    "Limbo.C105_parallel_opt_never_fails",
    "Limbo.C105_sparse_no_undefined_behaviour",
    "Limbo.C105_sparse_optimize_ends",
    "Limbo.C105_sparse_every_history_runs",
    "Limbo.C105_multi_wrong_dim_out"
   ],
   "note": "Schedules of SparsifiedGP's loop are arbitrary permutations; coordinates need not lie in the unit box (then more than max_points data may be kept, C50)."
  },
  {
   "property": "C106",
   "status": "proved",
   "theorems": [
    "Limbo.C106_pareto_front_files",
    "Limbo.C106_files_in_the_end",
    "Limbo.C106_needs_two_objectives",
    "Limbo.C106_multi_pareto_front_files",
    "Limbo.C106_benchmark_files",
    "Limbo.C106_benchmark_defined",
    "Limbo.C106_benchmark_undefined",
    "Limbo.C106_second_run_overwrites"
   ],
   "note": "Observations all have the same number (at least two) of entries. ParetoBenchmark is described as one refresh in any reachable state; text formatting is not modelled. Model operations do not throw (BOptimizer part)."
  },
  {
   "property": "C107",
   "status": "proved",
   "theorems": [
    "Limbo.C107_decides",
    "Limbo.C107_stop_certificate",
    "Limbo.C107_objective_bound",
    "Limbo.C107_never_stops_below_zero"
   ],
   "note": "The stopping criteria are MaxIterations and MaxPredictedValue. A failing query of the model inside the criterion is not represented; it cannot occur in the states the theorems speak about (the GP is fitted, grid points are finite)."
  },
  {
   "property": "C108",
   "status": "proved",
   "theorems": [
    "Limbo.C108_best_leaf_split",
    "Limbo.C108_every_pass_refines",
    "Limbo.C108_evaluations",
    "Limbo.C108_ends",
    "Limbo.C108_unstopped_run_is_undefined"
   ],
   "note": "Stated at the heads of the main loop (ImHead: the states in which the stopping criteria are asked). The undefined behaviour of runs that are not stopped is a fact about the code (a fixed tree of 1000 levels)."
  },
  {
   "property": "C109",
   "status": "proved",
   "theorems": [
    "Limbo.C109_next_point",
    "Limbo.C109_converges",
    "Limbo.C109_first_run",
    "Limbo.C109_unit_box",
    "Limbo.C109_limit"
   ],
   "note": "The accuracy eps of the optimizer of the acquisition function is a hypothesis on the run (C109_converges, C109_limit) or on the optimizer (C109_first_run, MaximisesWithin): limbo's local optimizers promise no global accuracy. C104 is the case of GridSearch, where it is proved. C103_near_observed_points is the variance bound behind it."
  },
  {
   "property": "C110",
   "status": "proved",
   "theorems": [
    "Limbo.C110_ei",
    "Limbo.C110_ucb",
    "Limbo.C110_grid_search",
    "Limbo.C110_needs_data_mean"
   ],
   "note": "C110_needs_data_mean is the counter-example for mean::NullFunction. Over exact reals: in double arithmetic the predictions of the two GPs agree only up to rounding, so near-ties can be decided differently."
  },
  {
   "property": "C111",
   "status": "proved",
   "theorems": [
    "Limbo.C111_logs",
    "Limbo.C111_never_worse"
   ],
   "note": "C111_logs is about every reachable state and every way optimize ends; C111_never_worse turns the 'first best' of a growing list into monotonicity of the logged value. Found missing by mutation testing of logBest."
  },
  {
   "property": "C112",
   "status": "proved",
   "theorems": [
    "Limbo.C112_every_evaluation",
    "Limbo.C112_every_evaluation_source",
    "Limbo.C112_never_fails",
    "Limbo.C112_first_run"
   ],
   "note": "C112_every_evaluation (exact constants), C112_every_evaluation_source (constants of the source, explicit error), C112_never_fails, C112_first_run (both together for a new optimizer)."
  },
  {
   "property": "C113",
   "status": "proved",
   "theorems": [
    "Limbo.C113_results_ignored",
    "Limbo.C113_used_with_reader"
   ],
   "note": "C113_results_ignored is the negation in its strongest form (a two-run theorem for every configuration in which nobody looks); C113_used_with_reader shows the contrast on a concrete optimizer. Consequence of the stale member _obs found under C59."
  },
  {
   "property": "C114",
   "status": "proved",
   "theorems": [
    "Limbo.C114_predictions_from_all_data",
    "Limbo.C114_on_return",
    "Limbo.C114_no_undefined_behaviour",
    "Limbo.C114_optimize_ends",
    "Limbo.C114_ei",
    "Limbo.C114_ucb"
   ],
   "note": "For all histories. Weights drawn are an arbitrary function of the call's arguments and the model state. The draw of an all-zero weight vector (possible, probability about 2^-53 per objective) is excluded: it divides by zero."
  },
  {
   "property": "C115",
   "status": "proved",
   "theorems": [
    "Limbo.Rng.C115_uniform_restarts",
    "Limbo.Rng.C115_gauss_even_restarts",
    "Limbo.Rng.C115_gauss_odd_does_not_restart",
    "Limbo.Rng.C115_seed_and_reset",
    "Limbo.Rng.C115_uniform_numbers",
    "Limbo.Rng.C115_gauss_numbers"
   ],
   "note": "Full characterisation over all histories, including the proved disagreement for Gaussian numbers (seed does not reset the distribution). The standard library's distributions are modelled by what they keep between draws (libstdc++: normal_distribution keeps the second number of each pair)."
  },
  {
   "property": "C116",
   "status": "proved",
   "theorems": [
    "Limbo.Rng.C116_thread_local",
    "Limbo.Rng.C116_without_overlap",
    "Limbo.Rng.C116_shared_generator_repeats"
   ],
   "note": "Positive part for all schedules; disagreement with the comment 'mutex-protected' proved from every state. A call is modelled as a read and a write-back; the C++ outcome of overlapping calls is undefined."
  },
  {
   "property": "C117",
   "status": "proved",
   "theorems": [
    "Limbo.C117_input_map",
    "Limbo.C117_translation",
    "Limbo.C117_isometry"
   ],
   "note": "C117_input_map is the general form: any map of the input space the kernel does not notice. Exact real arithmetic."
  },
  {
   "property": "C118",
   "status": "proved",
   "theorems": [
    "Limbo.C118_linear",
    "Limbo.C118_variance"
   ],
   "note": "Exact real arithmetic; refitting with compute at fixed hyper-parameters."
  },
  {
   "property": "C119",
   "status": "proved",
   "theorems": [
    "Limbo.C119_exceptions",
    "Limbo.C119_decisions",
    "Limbo.C119_gp_returns",
    "Limbo.C119_grid_search",
    "Limbo.C119_multi_returns",
    "Limbo.C119_sparse_returns",
    "Limbo.C119_parego_returns"
   ],
   "note": "C119_exceptions and C119_decisions hold for every number type and model; the theorems on returning (C119_gp_returns, C119_multi_returns, C119_sparse_returns, C119_parego_returns) in exact real arithmetic."
  },
  {
   "property": "C120",
   "status": "proved",
   "theorems": [
    "Limbo.Reg.C120_rastrigin",
    "Limbo.Reg.C120_ackley",
    "Limbo.Reg.C120_bukin",
    "Limbo.Reg.C120_drop_wave",
    "Limbo.Reg.C120_levy",
    "Limbo.Reg.C120_cross_in_tray",
    "Limbo.Reg.C120_holder_table",
    "Limbo.Reg.C120_hartmann6",
    "Limbo.Reg.C120_hartmann6_page",
    "Limbo.Reg.C120_robot_arm",
    "Limbo.Reg.C120_piston",
    "Limbo.Reg.C120_arm_dynamics",
    "Limbo.Reg.C120_draws",
    "Limbo.Reg.C120_noise",
    "Limbo.Reg.C120_step",
    "Limbo.Reg.C120_gramacy_lee",
    "Limbo.Reg.C120_schwefel",
    "Limbo.Reg.C120_six_hump_camel",
    "Limbo.Reg.C120_otl_circuit",
    "Limbo.Reg.C120_draws_more"
   ],
   "note": "exact real arithmetic; every function of the file is modelled. The sign of Hartmann6 is recorded in DESIGN section 5."
  },
  {
   "property": "C121",
   "status": "proved",
   "theorems": [
    "Limbo.C121_most_uncertain",
    "Limbo.C121_first_run"
   ],
   "note": "exact real arithmetic; the evolutionary algorithm (Sferes) is an arbitrary function of the state. objVar is the reported variance: the posterior variance, or 0 if that is at most 2^-52, plus the noise."
  }
 ]
}
