{
 "C09": {
  "status": "proved",
  "note": "The property is conditional on the initialiser and inner optimizer; proved as such and instantiated for RandomSampling+Rprop. With the fallback GridSearch in binary64 the premise fails: C09_grid_search_leaves_unit_box."
 },
 "C12": {
  "note": "Exact arithmetic: full grid; binary64: bins 9, 11, 18, ... lose the last value (proved witness)."
 },
 "C19": {
  "status": "partial",
  "note": "Proved in exact arithmetic; in binary64 the claim is false for bins such as 6, 7, 10 (proved negation)."
 },
 "C25": {
  "note": "par::loop, for_each, replicate for every schedule; par::sort is std::sort / tbb and is not modelled beyond its contract."
 },
 "C32": {
  "note": "Proved for every history in which load(recompute=false) and compute(..., compute_kernel=false) do not leave the flag set (CacheSafe); the load(false) exception is a proved witness."
 },
 "C57": {
  "note": "pareto_set fully proved; for the two-objective fast path see C57_sort_2objs_partial and its proved counterexample with ties."
 },
 "C40": {
  "note": "The state level, and a directory of files in the binary or the text format (composition with C54 and C55)."
 },
 "C38": {
  "note": "Exact arithmetic. MeanLFOpt / KernelMeanLFOpt with a parameterless mean (NullFunction, Data) fail an assertion: C38_mean_without_parameters_fails."
 },
 "C39": {
  "note": "For any optimizer; GP level. The multi-output variant is C67."
 },
 "C48": {
  "note": "True for means that ignore the data (null, constant, FunctionARD of these); C48_data_mean_differs is the proved counter-example for mean::Data."
 },
 "C49": {
  "note": "recompute(true,true) is fresh; recompute(true,false) is proved stale (what it does in general, and a concrete counter-example)."
 },
 "C66": {
  "note": "The state level, and a directory with one sub-directory per sub-model in the binary or the text format (composition with C54 and C55)."
 },
 "C67": {
  "note": "Exact arithmetic; sub-models are optimised independently (the parallel loop touches disjoint objects)."
 },
 "C50": {
  "note": "Thinning: any IEEE-like number type, distance function, schedule and uninitialised diagonal, under max_points >= dim and no overflow; both conditions are shown necessary. GP level: exact reals."
 },
 "C51": {
  "note": "Same setting as C50; ties are schedule dependent (proved witness)."
 },
 "C52": {
  "note": "Exact reals plus NaN/infinities. At iteration 0 GP-UCB is NaN for every model and point: C52_gp_ucb_first_iteration_is_nan."
 },
 "C53": {
  "note": "erfc is modelled by its integral; the identity with the Gaussian expectation is proved. Stale best value when the model changes but not its size: C53_stale_after_model_change."
 },
 "C63": {
  "note": "For every pair of models and every history of calls."
 },
 "C68": {
  "note": "Sequentially consistent interleavings (generous: in C++ the race is undefined behaviour). C68_fresh_object_races is the negation for a fresh object, C68_alone_is_ei ties the thread model to the function."
 },
 "C54": {
  "note": "Byte level, little-endian, file system as a map from paths to bytes; writes succeed."
 },
 "C55": {
  "note": "For every number formatter whose output has no separators; exactness fails for 15- or 16-digit printing (C55_text_is_lossy)."
 },
 "C69": {
  "note": "Crash = any prefix of the file writes plus any prefix of the next file; file writes are not reordered."
 },
 "C22": {
  "note": "NLopt is an arbitrary function of the problem it is given. Bounds, dimension and constraints of a re-used object: C22_history, C22_bounds_persist, C22_other_dimension."
 },
 "C23": {
  "note": "libcmaes is a parameter: maximisation assumes that the library's best candidate is the best one it evaluated, the box part that its transformation keeps to the bounds it is given. The settings are the result of the sequence of setter calls. Differences to the documented table at exactly 0: C23_tolerance_at_zero; dimension 0 is undefined: C23_dimension_zero_ub."
 },
 "C59": {
  "status": "partial",
  "note": "The property as a user expects it is false: C59_false (nobody looks) and C59_false_with_reader (infeasible point). Proved: exactly which data the two models hold in both situations, and the property itself when a statistic looks and every observation is feasible."
 },
 "C60": {
  "status": "partial",
  "note": "best_observation proved; best_sample is wrong in general (C60_false, C60_false_reachable, C60_false_infeasible_sample), right when no infeasible point precedes a feasible one."
 },
 "C61": {
  "note": "Exact reals. A random vector with sum zero gives NaN (C61_zero_weights_nan); after load no sample can be added (C61_no_add_after_load)."
 },
 "C70": {
  "note": "Any number type."
 },
 "C62": {
  "note": "Exact reals. Not shown: that a run ends (a pass need not evaluate anything), and rounding of the borders. Failures proved: C62_resumed_overlaps, C62_resumed_after_failure_ub, C62_estimate_kept."
 },
 "C71": {
  "note": "Exact reals; optimize calls with reset=true. C62_resumed_overlaps shows a resumed run storing a pair the objective did not return. The budget may be exceeded (exIm_run: 3 evaluations for MaxIterations(2))."
 },
 "C72": {
  "note": "Pareto set of the data for every history; the stale set after an EHVI run is proved with a concrete witness."
 },
 "C73": {
  "note": "One model per objective over the model interface (LawfulModel); stale by one evaluation after a run."
 },
 "C74": {
  "note": "Hypervolume computation, inner optimizer and Sferes are oracles; the zero-vector evaluation is proved with a concrete witness."
 },
 "C75": {
  "note": "Histories with failures; undefined cases are proved undefined."
 },
 "C76": {
  "note": "Run equals an explicit sequence of rounds and iterations; hyper-parameter optimizations on both models."
 },
 "C77": {
  "note": "Exact reals; LLT with its contract, the optimizer is any function; Eigen size checks modelled as failures."
 },
 "C78": {
  "note": "Value equals the log marginal likelihood up to the integer division of n - m, which is part of the statement."
 },
 "C79": {
  "note": "Every component; the odd case is proved to be off by 1/2 from the returned value."
 },
 "C80": {
  "note": "All constructors and histories."
 },
 "C81": {
  "note": "Exact start vector; the mixing of coordinates is proved with a concrete witness (2 pseudo-inputs of 2 coordinates)."
 },
 "C82": {
  "note": "Exact condition (iff); log 0 counts as not returning normally, because the C++ continues with infinities."
 },
 "C83": {
  "note": "The undefined cases are proved undefined."
 },
 "C84": {
  "note": "Exact description of the stale mean, and a concrete case with the wrong sign."
 },
 "C85": {
  "note": "Level A: holds for doubles."
 },
 "C86": {
  "note": "Exact reals (Lebesgue measure); the two failing cases are proved."
 },
 "C87": {
  "note": "Exact reals; formatting of the row is abstract."
 },
 "C88": {
  "note": "Exact real arithmetic; integrals as in Mathlib. C88_ehvi2d: exact constants; C88_ehvi2d_source: the constants of the source, with an error bound; C88_below_reference: the precondition is needed. Zero deviations (division by zero) are excluded; std::sort is any permutation sorted by the first objective."
 },
 "C89": {
  "note": "The documented intent (expected improvement under the predictions) is false: C89_not_expected_improvement; C89_variance_as_deviation says what is computed instead."
 },
 "C90": {
  "note": "Exact real arithmetic in the GP; a NaN or infinite sample coordinate that reaches the GP is outside the model."
 },
 "C91": {
  "note": "Exact real arithmetic in the GP, so the Cholesky factor always exists; memory exhaustion is not modelled."
 },
 "C92": {
  "note": "Exact real arithmetic inside the GP; text formatting and file names are not modelled; stat::GPLikelihood does not compile and has no model. After a reset stat::GP overwrites the files with the same numbers: the model lists all files ever written."
 },
 "C93": {
  "note": "Exact real arithmetic. EI objects are rebuilt in each iteration; the single-threaded value does not depend on the cache (C53). For GP_UCB the property is false of the code in iteration 0: C93_gp_ucb_grid_search_undefined proves it; C93_gp_ucb is the statement for iterations from 1 on."
 },
 "C94": {
  "note": "Exact reals, M_PI taken as \u03c0. Hartmann3 and Hartmann6 are not covered (their listed optima are rounded and their minima have no closed form). The refutations concern the rounded solutions of BraninNormalized and SixHumpCamel."
 },
 "C95": {
  "note": "The forgetting of the default constructor is a theorem (C95_default_constructor_forgets); BOptimizer always constructs its model with dimensions, so it is not affected."
 },
 "C96": {
  "note": "Describes the code as it is; the surprising part (stale predictions, no error) is shown by C96_old_predictions and the witness C96_stale_prediction."
 },
 "C97": {
  "note": "The file system is a map from paths to contents; a stream has its own position, as in C++. Processes, threads and objects are interleaved at the granularity of one call of a statistic (the stream is flushed with std::endl); partial writes inside a call are not modelled. Two local times that read the same (end of daylight saving time) are the same time here."
 },
 "C98": {
  "note": "Exact arithmetic (reals with IEEE special values), the same generic model as C16. Rounding is not covered. Convergence with momentum is not claimed."
 },
 "C99": {
  "note": "Exact arithmetic, the same generic model as C17."
 },
 "C100": {
  "note": "The posterior is taken as the true law of the objective at the queried point, as the acquisition functions do. That IMGPO uses each M once is not claimed: it does not (see DESIGN section 5). M_PI is taken to be exactly pi."
 },
 "C101": {
  "note": "Stated for mean functions that ignore the observations; for mean::Data the negation is proved (C101_data_mean_wrong), data and variances hold for every mean."
 },
 "C102": {
  "note": ""
 },
 "C103": {
  "note": "Exact real arithmetic. Proved from the GP refinement theorems (C27) by a variational bound for the posterior variance and Cauchy-Schwarz for the kernel's semi-inner product."
 },
 "C104": {
  "note": "Exact real arithmetic. C104_next_point (each decision), C104_converges (any history, given that optimize returned), C104_first_run (the first run returns and meets the bound)."
 },
 "C105": {
  "note": "Schedules of SparsifiedGP's loop are arbitrary permutations; coordinates need not lie in the unit box (then more than max_points data may be kept, C50)."
 },
 "C106": {
  "note": "Observations all have the same number (at least two) of entries. ParetoBenchmark is described as one refresh in any reachable state; text formatting is not modelled. Model operations do not throw (BOptimizer part)."
 },
 "C107": {
  "note": "The stopping criteria are MaxIterations and MaxPredictedValue. A failing query of the model inside the criterion is not represented; it cannot occur in the states the theorems speak about (the GP is fitted, grid points are finite)."
 },
 "C108": {
  "note": "Stated at the heads of the main loop (ImHead: the states in which the stopping criteria are asked). The undefined behaviour of runs that are not stopped is a fact about the code (a fixed tree of 1000 levels)."
 },
 "C14": {
  "note": "Exact arithmetic; C14_float_upper_edge shows what rounding can do at the upper edge of an interval."
 },
 "C109": {
  "note": "The accuracy eps of the optimizer of the acquisition function is a hypothesis on the run (C109_converges, C109_limit) or on the optimizer (C109_first_run, MaximisesWithin): limbo's local optimizers promise no global accuracy. C104 is the case of GridSearch, where it is proved. C103_near_observed_points is the variance bound behind it."
 },
 "C110": {
  "note": "C110_needs_data_mean is the counter-example for mean::NullFunction. Over exact reals: in double arithmetic the predictions of the two GPs agree only up to rounding, so near-ties can be decided differently."
 },
 "C111": {
  "note": "C111_logs is about every reachable state and every way optimize ends; C111_never_worse turns the 'first best' of a growing list into monotonicity of the logged value. Found missing by mutation testing of logBest."
 },
 "C112": {
  "note": "C112_every_evaluation (exact constants), C112_every_evaluation_source (constants of the source, explicit error), C112_never_fails, C112_first_run (both together for a new optimizer)."
 },
 "C113": {
  "note": "C113_results_ignored is the negation in its strongest form (a two-run theorem for every configuration in which nobody looks); C113_used_with_reader shows the contrast on a concrete optimizer. Consequence of the stale member _obs found under C59."
 },
 "C114": {
  "note": "For all histories. Weights drawn are an arbitrary function of the call's arguments and the model state. The draw of an all-zero weight vector (possible, probability about 2^-53 per objective) is excluded: it divides by zero."
 },
 "C115": {
  "note": "Full characterisation over all histories, including the proved disagreement for Gaussian numbers (seed does not reset the distribution). The standard library's distributions are modelled by what they keep between draws (libstdc++: normal_distribution keeps the second number of each pair)."
 },
 "C116": {
  "note": "Positive part for all schedules; disagreement with the comment 'mutex-protected' proved from every state. A call is modelled as a read and a write-back; the C++ outcome of overlapping calls is undefined."
 },
 "C117": {
  "note": "C117_input_map is the general form: any map of the input space the kernel does not notice. Exact real arithmetic."
 },
 "C118": {
  "note": "Exact real arithmetic; refitting with compute at fixed hyper-parameters."
 },
 "C119": {
  "note": "C119_exceptions and C119_decisions hold for every number type and model; the theorems on returning (C119_gp_returns, C119_multi_returns, C119_sparse_returns, C119_parego_returns) in exact real arithmetic."
 },
 "C120": {
  "note": "exact real arithmetic; every function of the file is modelled. The sign of Hartmann6 is recorded in DESIGN section 5."
 },
 "C121": {
  "note": "exact real arithmetic; the evolutionary algorithm (Sferes) is an arbitrary function of the state. objVar is the reported variance: the posterior variance, or 0 if that is at most 2^-52, plus the noise."
 }
}