{"id": "C01", "title": "Samples and observations stay paired", "statement": "After any sequence of calls on a Bayesian optimizer (optimize with either reset flag, add_new_sample, eval_and_add), samples() and observations() have the same length, and for every sample obtained through an evaluation the observation at the same index is exactly what the objective returned for that sample, in evaluation order; nothing is lost, reordered or duplicated, even when the objective throws or an observation is rejected half-way through optimize.", "quantifier": "every objective (stateful, throwing), every initialiser, acquisition, optimizer and stopping rule, every finite call history", "why_tests_cant": "A test runs a handful of short histories with a well-behaved objective; the claim is about every interleaving of resets, exceptions and resumed runs.", "anchors": ["src/limbo/bayes_opt/bo_base.hpp: BoBase::add_new_sample, eval_and_add, _init, samples, observations", "src/limbo/bayes_opt/boptimizer.hpp: BOptimizer::optimize"]}
{"id": "C02", "title": "Non-finite observations are never stored", "statement": "If the objective returns (or the user passes to add_new_sample) an observation with a NaN or infinite component, an EvaluationError is raised and the optimizer's samples and observations are exactly what they were before the call; consequently no history can make observations() contain a NaN or an infinity.", "quantifier": "every observation vector, every position of the bad component, every history", "why_tests_cant": "Tests try one NaN; the claim covers every component position and every later state.", "anchors": ["src/limbo/bayes_opt/bo_base.hpp: add_new_sample, EvaluationError", "src/limbo/tools/math.hpp: is_nan_or_inf"]}
{"id": "C03", "title": "best_observation and best_sample are the true best and match", "statement": "With at least one observation, best_observation(afun) is an element of observations() whose aggregated value is at least every other one's (the earliest such element), best_sample(afun) is the sample evaluated at that same index, and the aggregated best never decreases when evaluations are added. With no observation the call is undefined behaviour, and an aggregator returning NaN can break maximality.", "quantifier": "every history, every aggregator on the stored observations", "why_tests_cant": "The maximum over arbitrary data, tie-breaking and monotonicity over histories cannot be enumerated.", "anchors": ["src/limbo/bayes_opt/boptimizer.hpp: best_observation, best_sample", "src/limbo/bayes_opt/bo_base.hpp: FirstElem"]}
{"id": "C04", "title": "The evaluation budget is exact", "statement": "With MaxIterations(N) as stopping rule, a call to optimize that does not throw evaluates the objective exactly (number of initial points) + max(N,0) times, where the initialiser only runs when total_iterations is 0; current_iteration is then max(N,0) and total_iterations has grown by the same number. In particular optimize always terminates.", "quantifier": "every N (any int), every reset flag, every starting state, every objective, acquisition and inner optimizer", "why_tests_cant": "Budget exactness for all N and all resumed runs needs induction over the loop.", "anchors": ["src/limbo/bayes_opt/boptimizer.hpp: optimize", "src/limbo/stop/max_iterations.hpp", "src/limbo/bayes_opt/bo_base.hpp: _init, _stop, current_iteration, total_iterations"]}
{"id": "C05", "title": "Reset and resume semantics", "statement": "optimize(reset=true) discards every earlier sample and observation; optimize(reset=false) keeps all of them as a prefix of the new data and does not re-run the initialiser once total_iterations > 0. (If total_iterations is 0, e.g. after a zero-iteration run, the initialiser runs again and appends a second set of initial points.)", "quantifier": "every prior state and every configuration", "why_tests_cant": "Requires reasoning on arbitrary prior histories.", "anchors": ["src/limbo/bayes_opt/bo_base.hpp: _init", "src/limbo/bayes_opt/boptimizer.hpp: optimize"]}
{"id": "C06", "title": "The surrogate model always holds exactly the optimizer's data", "statement": "Whenever the acquisition function is evaluated, when the hyper-parameters are optimized, and when optimize returns normally, the model has been given exactly samples()/observations() of the optimizer, in the same order - no point missing, duplicated or stale. Statistics are written one sample earlier: the model they see lacks the newest point.", "quantifier": "every history of optimize calls including resumes and exceptions, every model with lawful compute/add_sample", "why_tests_cant": "The two data sets are kept in sync incrementally; divergence needs particular histories.", "anchors": ["src/limbo/bayes_opt/boptimizer.hpp: optimize, model", "src/limbo/model/gp.hpp: compute, add_sample"]}
{"id": "C07", "title": "Hyper-parameters are optimized exactly every hp_period iterations", "statement": "During one optimize call running n iterations, the model's hyper-parameter optimization is called exactly floor(n / hp_period) times, after iterations hp_period, 2*hp_period, ...; and never when hp_period <= 0.", "quantifier": "every hp_period (any int), every n", "why_tests_cant": "Off-by-one and resume effects over all periods and lengths.", "anchors": ["src/limbo/bayes_opt/boptimizer.hpp: optimize, defaults::bayes_opt_boptimizer::hp_period"]}
{"id": "C08", "title": "Stopping criteria combine as short-circuit OR", "statement": "The loop stops before an iteration iff at least one configured criterion says stop for the current state; the criteria are consulted in order, each at most once, and none after the first that says stop. MaxIterations says stop iff current_iteration >= iterations; MaxPredictedValue says stop iff the best aggregated observation exceeds ratio times the aggregated prediction at the model's predicted optimum, and never while there is no observation.", "quantifier": "every list of criteria, every state", "why_tests_cant": "All combinations of criteria and states.", "anchors": ["src/limbo/stop/chain_criteria.hpp", "src/limbo/stop/max_iterations.hpp", "src/limbo/stop/max_predicted_value.hpp", "src/limbo/bayes_opt/bo_base.hpp: _stop"]}
{"id": "C09", "title": "In bounded mode every evaluated point lies in the unit hypercube", "statement": "If the inner optimizer returns points of [0,1]^d when asked for a bounded solution and the initialiser draws from [0,1]^d, then with bayes_opt_bobase::bounded the objective is only ever called on points of [0,1]^d with the right dimension.", "quantifier": "every history; composed with the concrete initialisers and inner optimizers for which the premise is proved", "why_tests_cant": "A composition over arbitrary loop lengths and inner optimizers.", "anchors": ["src/limbo/bayes_opt/bo_base.hpp: BoBase::add_new_sample, eval_and_add, _init, samples, observations", "src/limbo/bayes_opt/boptimizer.hpp: BOptimizer::optimize", "src/limbo/opt/rprop.hpp", "src/limbo/opt/random_point.hpp", "src/limbo/init/random_sampling.hpp"]}
{"id": "C10", "title": "The samples / observations logs list every evaluation exactly once", "statement": "After a first optimize run with the Samples (Observations, AggregatedObservations) statistic, the log file contains the header, one row tagged -1 for each initial point in order, then one row per iteration in order, tagged 0,1,2,...; resumed runs append rows with increasing tags. If the run makes no iteration the file stays empty, and a later reset run writes a second header into the same file.", "quantifier": "every number of initial points, every number of iterations, every history of runs", "why_tests_cant": "Ordering/duplication over arbitrary run sequences.", "anchors": ["src/limbo/stat/samples.hpp", "src/limbo/stat/observations.hpp", "src/limbo/stat/aggregated_observations.hpp", "src/limbo/stat/stat_base.hpp", "src/limbo/bayes_opt/bo_base.hpp: _update_stats"]}
{"id": "C11", "title": "RandomSampling and NoInit evaluate the configured number of points", "statement": "RandomSampling evaluates exactly max(samples,0) points, each of dimension dim_in and, in bounded mode, in [0,1]^d; NoInit evaluates none.", "quantifier": "every sample count, dimension, random stream", "why_tests_cant": "All counts, dimensions and random streams.", "anchors": ["src/limbo/init/random_sampling.hpp", "src/limbo/init/no_init.hpp", "src/limbo/tools/random_generator.hpp: random_vector"]}
{"id": "C12", "title": "GridSampling visits the full grid exactly once", "statement": "In exact arithmetic GridSampling with bins = b > 0 evaluates exactly the (b+1)^d points of {0,1/b,...,1}^d, each once, in lexicographic order. (The documentation says bins^dim; and in IEEE double arithmetic accumulated rounding makes some b lose the last grid value.)", "quantifier": "every b > 0 and every dimension; rounding counter-example for one b", "why_tests_cant": "Tests use small b,d; count is exponential in d.", "anchors": ["src/limbo/init/grid_sampling.hpp: _explore"]}
{"id": "C13", "title": "RandomSamplingGrid draws grid points only", "statement": "RandomSamplingGrid evaluates exactly max(samples,0) points and each coordinate is k/bins for an integer 0 <= k <= bins, hence in [0,1]. The points it can draw are exactly (bins+1)^dim many; the class comment says bins^dim (5 bins, 3 dimensions: 125), which is FALSE of the code (216).", "quantifier": "every bins > 0, samples, dimension, random stream", "why_tests_cant": "All random streams.", "anchors": ["src/limbo/init/random_sampling_grid.hpp"]}
{"id": "C14", "title": "Latin hypercube initialisation is a Latin hypercube", "statement": "LHS with n samples in dimension d returns n points such that in every dimension each of the n intervals [k/n,(k+1)/n) contains exactly one of the points, in exact arithmetic. (In doubles a draw just below 1 can be rounded up to the edge of its interval.)", "quantifier": "every n, d, every shuffle and every random stream in [0,1)", "why_tests_cant": "Stratification must hold for all permutations and draws.", "anchors": ["src/limbo/init/lhs.hpp", "src/limbo/tools/random_generator.hpp: random_lhs"]}
{"id": "C15", "title": "Rprop: in bounds, and never worse than any point it tried", "statement": "In bounded mode Rprop only queries points of [0,1]^d and returns one; the returned point is the first visited point with the best value among all points it visited - so never worse than the (clamped) starting point; it performs at most max(iterations,0) evaluations, and its step sizes stay within [1e-6, 50].", "quantifier": "every objective/gradient (including NaN values and gradients, arbitrary rounding), every starting point, dimension, iteration budget", "why_tests_cant": "The trajectory depends on the objective; all of them must be covered, including floating-point arithmetic.", "anchors": ["src/limbo/opt/rprop.hpp", "src/limbo/tools/math.hpp: signum"]}
{"id": "C16", "title": "GradientAscent respects bounds and budget", "statement": "In bounded mode GradientAscent (with or without Nesterov momentum) only queries points whose every coordinate is in [0,1] (or NaN if the gradient is NaN) and returns such a point, of the dimension of the starting point, after at most max(iterations,0) evaluations.", "quantifier": "every gradient function, parameters, arithmetic rounding", "why_tests_cant": "Arbitrary gradients and rounding.", "anchors": ["src/limbo/opt/gradient_ascent.hpp"]}
{"id": "C17", "title": "Adam respects bounds and budget and never divides by zero", "statement": "In bounded mode Adam only queries and returns points whose coordinates are in [0,1] (or NaN if the gradient is NaN), with at most max(iterations,0) evaluations. For 0<=b1,b2<1 and eps>0 (or every second moment positive) every division and square root it performs is on admissible operands for every gradient sequence.", "quantifier": "every gradient sequence, parameters, rounding", "why_tests_cant": "Arbitrary gradient sequences.", "anchors": ["src/limbo/opt/adam.hpp"]}
{"id": "C18", "title": "GridSearch finds the global maximum over its grid", "statement": "In exact arithmetic, GridSearch with bins = b > 0 in dimension d >= 1 returns a point of {0,1/b,...,1}^d whose value is at least the value of every grid point, provided that on every grid line parallel to the last axis some value exceeds -DBL_MAX; if no value does (e.g. the function returns NaN everywhere) the returned vector is uninitialised memory.", "quantifier": "every function, b, d", "why_tests_cant": "Exponentially many grid points, all functions.", "anchors": ["src/limbo/opt/grid_search.hpp: _inner_search"]}
{"id": "C19", "title": "GridSearch stays within [0,1]", "statement": "All points queried and returned by GridSearch in bounded mode lie in [0,1]^d. TRUE in exact arithmetic, FALSE in IEEE binary64: with bins = 10 it evaluates, and can return, 1.0999999999999999.", "quantifier": "every b and d in exact arithmetic; concrete violation in binary64", "why_tests_cant": "Depends on rounding of accumulated sums; a test with a lucky bin count passes.", "anchors": ["src/limbo/opt/grid_search.hpp: _inner_search"]}
{"id": "C20", "title": "ParallelRepeater returns the best replicate for every schedule", "statement": "The value of the point returned by ParallelRepeater equals the best value among its replicates, whatever the work splitting of the parallel reduction, as long as some replicate exceeds -FLT_MAX (otherwise the caller's starting point is returned unevaluated). Which of several equally good points is returned is schedule dependent.", "quantifier": "every number of repeats, inner optimizer, every reduction tree", "why_tests_cant": "The set of schedules cannot be enumerated by tests.", "anchors": ["src/limbo/opt/parallel_repeater.hpp", "src/limbo/tools/parallel.hpp: max"]}
{"id": "C21", "title": "Chained and RandomPoint", "statement": "Chained<O1,...,On> is the sequential composition: O1 starts from the given point, each next optimizer starts from the previous result, all with the same objective and bounded flag, and the last result is returned; hence bounds of the last optimizer carry over. RandomPoint returns a point of the right dimension, in [0,1]^d if bounded, and never calls the objective.", "quantifier": "every list of optimizers, every objective", "why_tests_cant": "All compositions.", "anchors": ["src/limbo/opt/chained.hpp", "src/limbo/opt/random_point.hpp"]}
{"id": "C22", "title": "The NLOpt wrapper applies the requested bounds", "statement": "For a fresh wrapper object, optimize(bounded) runs the library with bounds [0,1]^d iff bounded, from the given point, maximising the user's function. FALSE for a re-used object: after a bounded call an unbounded call keeps the old bounds.", "quantifier": "every call sequence on one optimizer object", "why_tests_cant": "Statefulness across call sequences.", "anchors": ["src/limbo/opt/nlopt_base.hpp", "src/limbo/opt/nlopt_grad.hpp", "src/limbo/opt/nlopt_no_grad.hpp"]}
{"id": "C23", "title": "The CMA-ES wrapper maximises within the requested box", "statement": "The wrapper hands the negated objective to a minimiser, so the best point of the library's problem is a maximiser of the user's function among the points evaluated; every setting of the configuration (variant, elitism, restarts, uncertainty handling, limits, stopping criteria, target) reaches the library as documented; a bounded run with lbound <= ubound evaluates and returns points of [lbound,ubound]^d only, an unbounded one uses no box.", "quantifier": "every objective and configuration", "why_tests_cant": "All configurations and objectives.", "anchors": ["src/limbo/opt/cmaes.hpp"]}
{"id": "C24", "title": "Parallel max reduction is schedule independent", "statement": "par::max over n items returns an element that no other item (nor the initial one) strictly beats, for every splitting of the index range and every join order, and it equals a value in the input; the serial fall-back agrees up to ties.", "quantifier": "every strict weak order, every list, every reduction tree", "why_tests_cant": "All reduction trees.", "anchors": ["src/limbo/tools/parallel.hpp: max"]}
{"id": "C25", "title": "Parallel loop / for_each / replicate equal their serial version", "statement": "par::loop, for_each, replicate and par::sort perform the same effect as the serial loop for every schedule when iterations touch disjoint locations; par::loop with a mutex-protected append yields a permutation of the serial result.", "quantifier": "every schedule (order of iterations)", "why_tests_cant": "All schedules.", "anchors": ["src/limbo/tools/parallel.hpp: loop, for_each, replicate, sort"]}
{"id": "C26", "title": "Adding samples one by one equals fitting from scratch", "statement": "For any data set, a GP built by compute on a prefix followed by add_sample for the remaining points has the same Cholesky factor, weights, mean vector and hence the same predictions mu(v), sigma(v) for every v as one built by a single compute on all data.", "quantifier": "every kernel giving positive-definite Gram matrices, every mean function (also data dependent), every data set, prefix and query point", "why_tests_cant": "Inductive claim on arbitrary-size matrices.", "anchors": ["src/limbo/model/gp.hpp: compute, add_sample, _compute_full_kernel, _compute_incremental_kernel, _compute_alpha"]}
{"id": "C27", "title": "GP predictions are the exact Gaussian-process posterior", "statement": "With N = noise + 1e-8 (the kernels add 1e-8 to the diagonal of the Gram matrix): mu(v) = m(v) + k(v)^T (K + N I)^{-1} (Y-m(X)), and sigma(v) = max(0, k(v,v) - k(v)^T (K + N I)^{-1} k(v)) + noise, up to the documented flushing of variances below machine epsilon to 0.", "quantifier": "every data set, query point, kernel with positive-definite Gram matrix", "why_tests_cant": "Arbitrary sizes; numerical tests only compare samples.", "anchors": ["src/limbo/model/gp.hpp: query, mu, sigma, _mu, _sigma, _compute_k, _compute_alpha"]}
{"id": "C28", "title": "query, mu and sigma agree; an empty GP returns the prior", "statement": "query(v) = (mu(v), sigma(v)) for every GP state and point; with no data mu is the mean function and sigma is k(v,v)+noise.", "quantifier": "every GP state, every point", "why_tests_cant": "All states.", "anchors": ["src/limbo/model/gp.hpp: query, mu, sigma"]}
{"id": "C29", "title": "Predictive variance is bounded", "statement": "noise <= sigma(v) <= k(v,v) + noise for every point: never negative, never above the prior.", "quantifier": "every data set and query point", "why_tests_cant": "All data sets.", "anchors": ["src/limbo/model/gp.hpp: _sigma, sigma"]}
{"id": "C30", "title": "More data never increases the predictive variance", "statement": "With fixed hyper-parameters, sigma(v) after add_sample is at most sigma(v) before it, for every v.", "quantifier": "every GP state with positive-definite Gram matrix, new sample and query point", "why_tests_cant": "All data sets.", "anchors": ["src/limbo/model/gp.hpp: add_sample, sigma"]}
{"id": "C31", "title": "Predictions do not depend on the order of the data", "statement": "Permuting the (sample, observation) pairs passed to compute leaves mu(v), sigma(v) and the log-likelihood unchanged.", "quantifier": "every permutation, data set, query point", "why_tests_cant": "n! permutations.", "anchors": ["src/limbo/model/gp.hpp: compute, query"]}
{"id": "C32", "title": "The cached inverse is never stale", "statement": "Whenever a GP reports inv_kernel_computed(), the cached matrix is the inverse of the current kernel matrix, whatever sequence of compute, add_sample, recompute, compute_inv_kernel, likelihood and gradient calls was made. (load(recompute=false) breaks this.)", "quantifier": "every operation history", "why_tests_cant": "Cache-coherence over arbitrary histories.", "anchors": ["src/limbo/model/gp.hpp: compute_inv_kernel, _inv_kernel_updated, load"]}
{"id": "C33", "title": "compute_log_lik is the Gaussian log marginal likelihood", "statement": "For one output, compute_log_lik() = -1/2 (y-m)^T K^{-1} (y-m) - 1/2 log det K - n/2 log 2 pi. For several outputs the determinant and constant terms are counted once only, so the value differs from the sum of the per-output log-likelihoods.", "quantifier": "every data set", "why_tests_cant": "All sizes.", "anchors": ["src/limbo/model/gp.hpp: compute_log_lik"]}
{"id": "C34", "title": "Kernel likelihood gradient is the true gradient", "statement": "compute_kernel_grad_log_lik() is the exact derivative of compute_log_lik() with respect to every kernel hyper-parameter (including the noise when it is optimized).", "quantifier": "every data set, every differentiable kernel, every parameter index", "why_tests_cant": "Finite-difference tests sample points only.", "anchors": ["src/limbo/model/gp.hpp: compute_kernel_grad_log_lik", "src/limbo/kernel/kernel.hpp: grad"]}
{"id": "C35", "title": "Mean likelihood gradient is the true gradient", "statement": "compute_mean_grad_log_lik() is the exact derivative of compute_log_lik() with respect to every mean-function parameter.", "quantifier": "every data set, differentiable mean function, parameter index", "why_tests_cant": "Finite-difference tests sample points only.", "anchors": ["src/limbo/model/gp.hpp: compute_mean_grad_log_lik"]}
{"id": "C36", "title": "compute_log_loo_cv is the leave-one-out log predictive density", "statement": "compute_log_loo_cv() equals the sum over i of the Gaussian log-density of observation i under the posterior of a GP trained on all other points.", "quantifier": "every data set (one output), positive-definite Gram matrix", "why_tests_cant": "All sizes; needs the partitioned-inverse identity.", "anchors": ["src/limbo/model/gp.hpp: compute_log_loo_cv"]}
{"id": "C37", "title": "LOO gradient is the true gradient", "statement": "compute_kernel_grad_log_loo_cv() is the exact derivative of compute_log_loo_cv() with respect to each kernel hyper-parameter.", "quantifier": "every data set, differentiable kernel", "why_tests_cant": "Finite differences sample points only.", "anchors": ["src/limbo/model/gp.hpp: compute_kernel_grad_log_loo_cv"]}
{"id": "C38", "title": "Hyper-parameter optimization never makes the likelihood worse", "statement": "With Rprop (at least one iteration) KernelLFOpt, MeanLFOpt, KernelMeanLFOpt and KernelLooOpt return normally and leave a GP whose criterion (log-likelihood / LOO) is at least what it was before for the same data; MeanLFOpt and KernelMeanLFOpt require a mean function with at least one parameter.", "quantifier": "every data set, kernel, mean function, iteration budget", "why_tests_cant": "All trajectories.", "anchors": ["src/limbo/model/gp/kernel_lf_opt.hpp", "src/limbo/model/gp/mean_lf_opt.hpp", "src/limbo/model/gp/kernel_mean_lf_opt.hpp", "src/limbo/model/gp/kernel_loo_opt.hpp", "src/limbo/opt/rprop.hpp"]}
{"id": "C39", "title": "Hyper-parameter optimization keeps data and leaves a consistent GP", "statement": "After optimize_hyperparams() the samples and observations are unchanged and every prediction equals that of a GP freshly fitted with the new hyper-parameters.", "quantifier": "every optimizer result, data set, each of the four HP optimizers", "why_tests_cant": "All states.", "anchors": ["src/limbo/model/gp/hp_opt.hpp", "src/limbo/model/gp/kernel_lf_opt.hpp", "src/limbo/model/gp.hpp: recompute, optimize_hyperparams"]}
{"id": "C40", "title": "Saving and loading a GP preserves it", "statement": "After save to and load from a directory (recompute or not), the loaded GP gives the same mu(v), sigma(v) for every v, and has the same samples, observations and hyper-parameters. (With recompute=false the likelihood functions are not usable until recompute.)", "quantifier": "every GP state reachable through the API, both archives", "why_tests_cant": "All data.", "anchors": ["src/limbo/model/gp.hpp: save, load", "src/limbo/serialize/binary_archive.hpp", "src/limbo/serialize/text_archive.hpp"]}
{"id": "C41", "title": "recompute after a hyper-parameter change equals a fresh fit", "statement": "After any change of kernel or mean hyper-parameters, recompute() makes the GP equal to one computed from scratch with those parameters; recompute() on an up-to-date GP changes nothing.", "quantifier": "every state, every parameter change", "why_tests_cant": "All states.", "anchors": ["src/limbo/model/gp.hpp: recompute"]}
{"id": "C42", "title": "Kernels are symmetric, positive, bounded by their value at zero distance", "statement": "For Exp, SquaredExpARD (k = 0), MaternThreeHalves, MaternFiveHalves: k(x,y)=k(y,x), 0 < k(x,y) <= sigma^2 = k(x,x) when x,y are different training indices; noise (+1e-8) is added exactly when both indices are equal.", "quantifier": "every pair of points and every parameter value", "why_tests_cant": "All reals.", "anchors": ["src/limbo/kernel/*.hpp"]}
{"id": "C43", "title": "Gram matrices are positive definite, so fitting never fails", "statement": "For the Exp and SquaredExpARD kernels (and Matern), the matrix factorised by compute is symmetric positive definite for every list of samples, even with duplicated points; so every pivot is positive: no square root of a negative number, no division by zero (exact arithmetic).", "quantifier": "every list of samples, any parameters, any noise >= 0", "why_tests_cant": "Positive definiteness is a universally quantified statement.", "anchors": ["src/limbo/kernel/exp.hpp", "src/limbo/kernel/squared_exp_ard.hpp", "src/limbo/kernel/matern_three_halves.hpp", "src/limbo/kernel/matern_five_halves.hpp", "src/limbo/kernel/kernel.hpp"]}
{"id": "C44", "title": "Kernel gradients are the derivatives with respect to the hyper-parameters", "statement": "For each kernel, grad(x,y,i,j) is the vector of partial derivatives of the kernel value with respect to h_params(), including the noise component.", "quantifier": "every pair of points, every parameter vector, every kernel", "why_tests_cant": "Finite differences sample.", "anchors": ["src/limbo/kernel/*.hpp: gradient, grad"]}
{"id": "C45", "title": "Hyper-parameters round-trip", "statement": "set_h_params(p); h_params() returns p for every kernel and mean function, h_params().size()==h_params_size(), and set_h_params(h_params()) leaves kernel values unchanged.", "quantifier": "every parameter vector of the right size", "why_tests_cant": "All vectors.", "anchors": ["src/limbo/kernel/*.hpp: set_params, params, h_params", "src/limbo/mean/*.hpp: h_params, set_h_params"]}
{"id": "C46", "title": "Mean functions compute what they document", "statement": "NullFunction is 0, Constant its constant vector, Data the running mean of the observations; FunctionARD of a mean m starts as m itself, equals W m(v) + b for its parameters, and its gradient is its derivative.", "quantifier": "every parameter vector, model state and point", "why_tests_cant": "All inputs.", "anchors": ["src/limbo/mean/*.hpp"]}
{"id": "C47", "title": "MultiGP is a bank of independent GPs", "statement": "MultiGP's mu(v), sigma(v) and query(v), in every up-to-date state, are, component by component, those of single-output zero-mean GPs fitted to the mean-subtracted components, plus the mean function; without data they are the prior.", "quantifier": "every data set, output dimension, query point", "why_tests_cant": "All dims.", "anchors": ["src/limbo/model/multi_gp.hpp"]}
{"id": "C48", "title": "MultiGP add_sample equals compute", "statement": "Fitting a MultiGP incrementally equals fitting it from scratch. TRUE for mean functions that ignore the data; FALSE for mean::Data: previously stored residuals are not updated when the mean moves.", "quantifier": "every data set; concrete counter-example for mean::Data", "why_tests_cant": "Needs all histories.", "anchors": ["src/limbo/model/multi_gp.hpp: add_sample, compute"]}
{"id": "C49", "title": "MultiGP recompute after a change of the mean function or of the kernels", "statement": "After changing mean-function parameters, MultiGP::recompute(true,true) gives the predictions of a fresh fit. recompute(true,false) should too (as it does for the single-output GP) but does NOT: the weights of the sub-models are left stale, and predictions only move by the change of the prior mean at the query point. After changing kernel parameters of any sub-models (and leaving the mean function's alone), recompute(false,true) succeeds and gives the predictions of a fresh fit with the new kernels.", "quantifier": "every history, data set and query point; concrete counter-example for recompute(true,false)", "why_tests_cant": "State after a particular call sequence.", "anchors": ["src/limbo/model/multi_gp.hpp: recompute", "src/limbo/model/gp.hpp: recompute, compute"]}
{"id": "C50", "title": "SparsifiedGP bounds its data", "statement": "After compute or add_sample the SparsifiedGP contains at most max_points samples, which form an order-preserving sub-list of the given pairs (each kept sample with its own observation); nothing is removed if there are at most max_points pairs. Precondition: max_points >= dimension (otherwise partial_sort goes past the end).", "quantifier": "every data set, every schedule of the parallel loop", "why_tests_cant": "All data and schedules.", "anchors": ["src/limbo/model/sparsified_gp.hpp"]}
{"id": "C51", "title": "SparsifiedGP removes a most redundant point", "statement": "Each removal takes a point whose summed distance to its nearest dim(x) neighbours is minimal among the remaining points, for every schedule of the parallel loop (ties are schedule dependent); the uninitialised diagonal never matters.", "quantifier": "every schedule, every data set", "why_tests_cant": "All schedules.", "anchors": ["src/limbo/model/sparsified_gp.hpp: _get_most_dense_point, _sparsify"]}
{"id": "C52", "title": "UCB and GP-UCB", "statement": "UCB(v) = afun(mu(v)) + alpha*sqrt(sigma(v)), increasing in both; GP_UCB uses beta_t = sqrt(2 log(t^{d/2+2} pi^2/(3 delta))) which is a real number for t >= 1 - but at t = 0, which is the value the optimizer passes in its first iteration, it is NaN, so the acquisition value is NaN for every point.", "quantifier": "every model, point, iteration number", "why_tests_cant": "All iteration numbers.", "anchors": ["src/limbo/acqui/ucb.hpp", "src/limbo/acqui/gp_ucb.hpp", "src/limbo/bayes_opt/boptimizer.hpp: optimize"]}
{"id": "C53", "title": "Expected improvement is non-negative and equals its definition", "statement": "EI(v) = E[max(0, f(v) - fmax - xi)] for f(v) ~ N(mu, sigma^2); in particular it is >= 0, is 0 with no data or when sigma(v) < 1e-10, and fmax is the maximum of the aggregated predictions at the model's samples as long as the object is used with one model; if the model changes without changing its number of samples, the old maximum is used.", "quantifier": "every model state and point", "why_tests_cant": "Integral identity for all reals.", "anchors": ["src/limbo/acqui/ei.hpp"]}
{"id": "C54", "title": "Binary archive round-trip", "statement": "Loading a matrix, vector or non-empty list of vectors saved by BinaryArchive returns exactly the same object, bit for bit (NaN payloads and signed zeros included); saving one object never alters another. An empty list cannot be loaded, and loading a missing matrix silently gives an empty one.", "quantifier": "every shape and bit pattern", "why_tests_cant": "2^64 bit patterns per entry and arbitrary shapes.", "anchors": ["src/limbo/serialize/binary_archive.hpp"]}
{"id": "C55", "title": "Text archive round-trip", "statement": "Loading a matrix or list of equal-length vectors saved by TextArchive restores its shape and each entry up to the printed precision of the number formatter; a number that cannot be parsed, a missing file and an empty file are refused, but a line shorter than the first is accepted and leaves uninitialised entries; the entries are not restored exactly (0.1+0.2 is printed as 0.3), and a matrix without entries comes back as 1x0.", "quantifier": "every shape with at least one row and column, every formatter whose output has no separators", "why_tests_cant": "All shapes and contents.", "anchors": ["src/limbo/serialize/text_archive.hpp"]}
{"id": "C56", "title": "Small numeric tools are correct", "statement": "signum is the sign, is_nan_or_inf(v) iff some component is NaN or infinite, make_vector(x) is the 1-vector, and BO_PARAM_ARRAY / BO_PARAM_VECTOR create arrays of exactly the listed elements (up to 62).", "quantifier": "every input", "why_tests_cant": "All doubles / lists.", "anchors": ["src/limbo/tools/math.hpp", "src/limbo/tools/macros.hpp"]}
{"id": "C57", "title": "pareto_set returns exactly the non-dominated points", "statement": "pareto_set(P) contains exactly the elements of P that no element of P dominates (with multiplicity), every element of P is dominated by or equal to a member of the result, and the objective lists are in lexicographic order, whatever the parallel schedule.", "quantifier": "every population (finite values), every schedule", "why_tests_cant": "All populations and schedules.", "anchors": ["src/limbo/experimental/tools/pareto.hpp"]}
{"id": "C58", "title": "Dominance is a strict partial order", "statement": "dominate is irreflexive, asymmetric and transitive on objective vectors of equal length, and a non-empty population has a non-empty front.", "quantifier": "every triple of vectors", "why_tests_cant": "All vectors.", "anchors": ["src/limbo/experimental/tools/pareto.hpp: dominate_flag, dominate, non_dominated"]}
{"id": "C59", "title": "CBOptimizer feeds the model with the latest observation", "statement": "After every run of the constrained optimizer the objective model has, for every sample, the objective part of that sample's observation. FALSE in the code: the split observation lists are refreshed only when somebody looks (a statistic or stopping criterion calling a best_* function, or the initial fit), so stale observations are added; with a looking statistic the constraint model is right but an infeasible point still gets the objective of the last feasible one. TRUE when a statistic looks at every iteration and all observations are feasible. Proved: exactly which observations the models contain in both situations.", "quantifier": "every number type, lawful model, initialiser, acquisition, history of calls; concrete counter-examples", "why_tests_cant": "Needs history reasoning.", "anchors": ["src/limbo/experimental/bayes_opt/cboptimizer.hpp: optimize, _split_observations"]}
{"id": "C60", "title": "CBOptimizer::best_sample is the sample of best_observation", "statement": "best_observation is the best feasible objective (the best objective if none is feasible), earliest among ties. best_sample is the sample of best_observation: FALSE in general, because the index in the filtered list is used in the unfiltered sample list. TRUE when no infeasible point precedes a feasible one. With no constraints both read past the end of an empty vector.", "quantifier": "every stored data set and aggregator without NaN; concrete counter-examples", "why_tests_cant": "Needs particular feasibility patterns.", "anchors": ["src/limbo/experimental/bayes_opt/cboptimizer.hpp: best_sample, _feasible_observations"]}
{"id": "C61", "title": "ParEGO scalarisation", "statement": "After any history of calls the ParEGO model is a GP on the given samples whose observations are, one for each sample, the augmented Tchebycheff scalarisation of the given objectives, all with the one weight vector drawn by the last compute / add_sample. Better objectives never get a worse value. Calls with data of matching sizes never fail.", "quantifier": "every history of calls, every data set, every random vector whose sum is not zero", "why_tests_cant": "All data.", "anchors": ["src/limbo/experimental/model/gp_parego.hpp"]}
{"id": "C62", "title": "IMGPO cells tile the search space", "statement": "After optimize(f, afun, true) returns, the leaf cells of the tree tile [0,1]^d (they cover it and no two overlap); every cell of depth h is a box inside [0,1]^d with sides 3^-n_j where the n_j add up to h and differ by at most one (always a longest side is cut in three equal parts), and its stored point is its centre; the objective is only called on points of [0,1]^d apart from the initialiser's points. With a positive dimension, defined model operations and fewer than 1000 passes nothing is read out of bounds. For a run resumed with reset=false the cells stay correct but a second root overlaps the others; after a failed evaluation a resumed run reads out of bounds.", "quantifier": "every dimension d>0, model, acquisition function, objective, aggregator, list of criteria, previous state and number of passes, over exact reals", "why_tests_cant": "All trees.", "anchors": ["src/limbo/experimental/bayes_opt/imgpo.hpp: IMGPO::optimize, TreeNode, _init_tree"]}
{"id": "C63", "title": "Constrained EI is EI times the probability of feasibility", "statement": "ECI(v) = EI(v)*PF(v) with PF(v) in [0,1] the probability that the aggregated predicted constraint is at least 1 (1 if the constraint model has no data or no uncertainty); hence 0 <= ECI <= EI, and 0 without data or with sigma < 1e-10.", "quantifier": "every pair of models and points", "why_tests_cant": "All reals.", "anchors": ["src/limbo/experimental/acqui/eci.hpp"]}
{"id": "C64", "title": "Kernels compute their documented formulas from the hyper-parameters", "statement": "After set_h_params(p) the Exp, MaternThreeHalves, MaternFiveHalves and SquaredExpARD kernels evaluate exactly their documented closed formulas, where p holds the logarithms of the length scales and of the signal standard deviation (and, for SquaredExpARD with k > 0, the entries of Lambda column by column in linear scale).", "quantifier": "all kernels, all hyper-parameter vectors, all pairs of points, every input dimension and every k", "why_tests_cant": "Tests compare a few points against a second implementation; the indexing of Lambda and the log-scale conventions must be right for every dimension and every k.", "anchors": ["src/limbo/kernel/exp.hpp: Exp", "src/limbo/kernel/matern_three_halves.hpp: MaternThreeHalves", "src/limbo/kernel/matern_five_halves.hpp: MaternFiveHalves", "src/limbo/kernel/squared_exp_ard.hpp: SquaredExpARD"]}
{"id": "C65", "title": "A GP keeps exactly the data it was given", "statement": "After any sequence of calls on a GP, samples() and observations() return exactly the points and values of the last compute() or load() followed by those of the later add_sample() calls, in order; no other call changes them. Every call with matching sizes and at least one sample succeeds.", "quantifier": "all call histories, all data sets, all dimensions, all standard kernels and means", "why_tests_cant": "Tests look at a few short histories; the claim is about every interleaving of compute, add_sample, recompute, parameter changes, cache refreshes and load.", "anchors": ["src/limbo/model/gp.hpp: GP::samples, GP::observations, GP::compute, GP::add_sample, GP::recompute, GP::load"]}
{"id": "C66", "title": "MultiGP save/load round trip", "statement": "Loading what an up-to-date MultiGP saved, into any MultiGP object, with or without recomputing, restores its data, hyper-parameters and every prediction.", "quantifier": "every history, archive target, data set, output dimension, query point", "why_tests_cant": "All histories and target objects.", "anchors": ["src/limbo/model/multi_gp.hpp: save, load"]}
{"id": "C67", "title": "ParallelLFOpt never makes an output's fit worse", "statement": "multi_gp::ParallelLFOpt with the default gradient optimizer keeps the data and mean function, leaves the fit up to date and does not decrease the log marginal likelihood of any output.", "quantifier": "every up-to-date MultiGP, every positive number of iterations per sub-model", "why_tests_cant": "All data sets and iteration counts.", "anchors": ["src/limbo/model/multi_gp/parallel_lf_opt.hpp", "src/limbo/model/gp/kernel_lf_opt.hpp"]}
{"id": "C68", "title": "One EI object evaluated by several threads", "statement": "The acquisition object handed to the inner optimizer may be called by several threads at once (CMA-ES evaluates its population in parallel, ParallelRepeater runs several optimizers). If one call has returned for the current model before the threads start, every interleaving gives each thread the value a lone call gives. Without that, it does not hold: the number of samples is recorded before the best value, so a second thread can return a value computed from the uninitialised best value.", "quantifier": "every model, every number of threads and points, every interleaving", "why_tests_cant": "The wrong value needs a rare schedule; the safety claim is about all schedules.", "anchors": ["src/limbo/acqui/ei.hpp: EI::operator()", "src/limbo/opt/cmaes.hpp: set_mt_feval(true)", "src/limbo/opt/parallel_repeater.hpp", "src/limbo/bayes_opt/boptimizer.hpp: optimize"]}
{"id": "C69", "title": "A save interrupted by a crash", "statement": "If the process dies while a GP is being saved, then of the files being written those before some position are complete, those after it are untouched and at most one is cut short. The save as a whole is not atomic: over an earlier save there is always a crash point after which the new samples load together with the old observations without any error, and a matrix file cut short loads without error with uninitialised entries (binary archive).", "quantifier": "every crash point, every earlier content of the directory, all saved objects", "why_tests_cant": "Tests do not kill the process at every byte.", "anchors": ["src/limbo/model/gp.hpp: GP::save", "src/limbo/serialize/binary_archive.hpp"]}
{"id": "C70", "title": "CBOptimizer stored data and evaluation budget", "statement": "The constrained optimizer keeps its samples and observations paired, in the order of evaluation, with only finite observations, also after a failed evaluation; with MaxIterations = N a run that returns has evaluated exactly N points after the initialisation.", "quantifier": "every history of optimize calls, objective functions, initialisers and stopping criteria", "why_tests_cant": "All histories, including objective functions that fail.", "anchors": ["src/limbo/experimental/bayes_opt/cboptimizer.hpp: optimize, eval_and_add", "src/limbo/bayes_opt/bo_base.hpp: eval_and_add, add_new_sample"]}
{"id": "C71", "title": "IMGPO's data and budget", "statement": "After any history of calls on an IMGPO object in which every optimize resets (the default), including failed ones, samples and observations are paired, are exactly the pairs given by the user or returned by the objective since the last reset, in order, and finite; with MaxIterations(n) a run that returns has made at least n evaluations besides the initialiser, and current_iteration counts exactly these evaluations. (FALSE for a run resumed with reset=false: the centre is evaluated again and its old observation stored.)", "quantifier": "every history of calls, objective, model and criteria, over exact reals", "why_tests_cant": "All histories and failure points.", "anchors": ["src/limbo/experimental/bayes_opt/imgpo.hpp: IMGPO::optimize", "src/limbo/bayes_opt/bo_base.hpp: add_new_sample"]}
{"id": "C72", "title": "The Pareto set reported by the multi-objective optimizers", "statement": "After any history of calls on a multi-objective optimizer (EHVI or NSBO), update_pareto_data() leaves in pareto_data() exactly the stored (sample, observation) pairs whose observation is dominated by no stored observation, and changes nothing else; it returns whenever there is data with at least two objectives, and is undefined otherwise. After an EHVI run with at least one iteration, however, pareto_data() is the Pareto set of all data EXCEPT the last evaluation, so it can contain dominated points and miss the best one until update_pareto_data() is called again.", "quantifier": "every history of calls (including failed evaluations), objective, model, schedule of the parallel loops and number of objectives >= 2", "why_tests_cant": "Ranges over all data sets, ties and schedules; a unit test checks one small front.", "anchors": ["src/limbo/experimental/bayes_opt/bo_multi.hpp: BoMulti::update_pareto_data, _pack_data", "src/limbo/experimental/tools/pareto.hpp: pareto_set", "src/limbo/experimental/bayes_opt/ehvi.hpp: Ehvi::optimize"]}
{"id": "C73", "title": "One model per objective, fitted to that objective", "statement": "After any history, update_pareto_model() leaves exactly one model per objective, the j-th of which holds precisely the stored samples in order, each paired with the j-th entry of its observation; it returns if there is data and the models accept it. An observation with more entries than the first is undefined behaviour. After a run of EHVI or NSBO with at least one iteration the models lack the last evaluation.", "quantifier": "every history of calls, model class obeying the model interface, number of objectives", "why_tests_cant": "Any number of objectives and any history of failures; silent transposition or truncation of columns is not visible in a scalar test.", "anchors": ["src/limbo/experimental/bayes_opt/bo_multi.hpp: BoMulti::_update_models, update_pareto_model, models"]}
{"id": "C74", "title": "Where the multi-objective optimizers evaluate", "statement": "Every point evaluated by EHVI after initialisation is, with respect to the data known at that time, the result of an inner optimization started at some sample of the current Pareto set, with expected hypervolume improvement at least that of the result from every other start whose improvement is a number, computed on models fitted to all data so far; or, if no result has an improvement above -FLT_MAX (for example all are NaN), the one-dimensional zero vector, whatever the dimension of the problem. Every point evaluated by NSBO is a point of the evolutionary algorithm's front of the fitted models whose vector of standard deviations no other point of that front dominates.", "quantifier": "every objective, model, inner optimizer, schedule, history and number of iterations", "why_tests_cant": "Each iteration depends on all previous data and on the reduction order of a parallel maximum.", "anchors": ["src/limbo/experimental/bayes_opt/ehvi.hpp: Ehvi::optimize", "src/limbo/experimental/bayes_opt/nsbo.hpp: Nsbo::optimize", "src/limbo/experimental/acqui/ehvi.hpp: Ehvi::operator()", "src/limbo/tools/parallel.hpp: max"]}
{"id": "C75", "title": "Data and budget of the multi-objective optimizers", "statement": "After any history of calls on an EHVI or NSBO object, samples and observations are paired, finite and exactly the pairs given by the user or returned by the objective since the last reset, in order. With MaxIterations(N) a run that returns adds exactly max(N,0) evaluations to those of the initialisation, and every evaluation is within the budget and in the set to which the inner optimizer's results belong. If the initialisation yields no sample the run is undefined even with MaxIterations(0), because the criteria are not consulted; NSBO is undefined at its first iteration when compiled without Sferes or with fewer than two objectives.", "quantifier": "every history, objective, initialiser, stopping criteria and iteration count", "why_tests_cant": "Needs all histories, failure points and degenerate initialisations.", "anchors": ["src/limbo/experimental/bayes_opt/ehvi.hpp: Ehvi::optimize", "src/limbo/experimental/bayes_opt/nsbo.hpp: Nsbo::optimize", "src/limbo/bayes_opt/bo_base.hpp: BoBase::_init, add_new_sample, _stop"]}
{"id": "C76", "title": "The loop of the constrained optimizer", "statement": "A run of CBOptimizer that returns asks every stopping criterion, in order, before every iteration; each iteration starts only after all of them refused, the run ends at the first approval, later criteria no longer being asked. Hyper-parameter optimization is performed on both models exactly in iterations p, 2p, 3p, ... for hp_period p > 0, and never for p <= 0.", "quantifier": "every objective, model, list of criteria, period and number of iterations", "why_tests_cant": "Unbounded number of iterations and arbitrary criteria depending on the whole state.", "anchors": ["src/limbo/experimental/bayes_opt/cboptimizer.hpp: CBOptimizer::optimize", "src/limbo/stop/chain_criteria.hpp: ChainCriteria"]}
{"id": "C77", "title": "Predictions of the sparse Gaussian process", "statement": "After any history of calls on an SPGP object that ends with compute, add_sample or recompute, query(v) returns the predictive mean (prior mean plus k_x^T Q_M^-1 K_MN (Lambda + sigma^2)^-1 r) and variance (k(x,x) - k_x^T (K_M^-1 - Q_M^-1) k_x + sigma^2) of the sparse Gaussian process with pseudo-inputs for the data held and for the hyper-parameters that the optimizer returned in the last call; pseudo_samples() returns its pseudo-inputs; the variance is never below the noise variance nor above prior plus noise variance; predict(points) agrees with query point by point.", "quantifier": "every history of calls, data, optimizer, shuffle, query point; any dimension and number of samples", "why_tests_cant": "The claim relates two different formulas over all data sets and hyper-parameters.", "anchors": ["src/limbo/experimental/model/spgp.hpp: SPGP::query, predict, compute, add_sample, recompute, _compute, _predict"]}
{"id": "C78", "title": "Objective of the sparse Gaussian process", "statement": "The objective handed to the hyper-parameter optimizer is the log marginal likelihood of the data under the sparse process with the given vector, exactly if the number of samples minus the number of pseudo-inputs is even, and half the logarithm of the noise variance more if it is odd.", "quantifier": "every history, every vector of hyper-parameters at which the objective is evaluated", "why_tests_cant": "Equality with a determinant/inverse formula for all data and parameters.", "anchors": ["src/limbo/experimental/model/spgp.hpp: SPGP::_likelihood, _likelihood_wp"]}
{"id": "C79", "title": "Gradient of the sparse Gaussian process objective", "statement": "Each component of the gradient that the objective returns is the partial derivative of the log marginal likelihood with respect to that component of the vector. (For an odd number of samples minus pseudo-inputs the last component therefore differs by one half from the derivative of the returned value.)", "quantifier": "every history, vector and component", "why_tests_cant": "A derivative identity for all data; finite differences only sample it.", "anchors": ["src/limbo/experimental/model/spgp.hpp: SPGP::_likelihood_wp"]}
{"id": "C80", "title": "Data view of the sparse Gaussian process", "statement": "After any history, samples() returns the inputs given so far in order and nb_samples() their number; after any call nb_pseudo_samples() is the configured percentage of that number, rounded down, but at least the configured minimum, never more than nb_samples(), and the pseudo-samples have the dimension of the samples.", "quantifier": "every constructor and history of calls", "why_tests_cant": "Unbounded histories.", "anchors": ["src/limbo/experimental/model/spgp.hpp: SPGP::samples, nb_samples, nb_pseudo_samples, pseudo_samples, _update_m"]}
{"id": "C81", "title": "Start of the sparse Gaussian process optimization", "statement": "The optimizer is started at length-scale parameters 4/range^2 for each coordinate, amplitude equal to the mean square residual, a quarter of it as noise, and a listing of the samples selected by the shuffle. These are the initial pseudo-inputs if there is one pseudo-input or one coordinate; otherwise their coordinates are mixed up (row-major listing read column-major), so that an initial pseudo-input need not be a sample.", "quantifier": "every history, data and shuffle", "why_tests_cant": "All shapes; tests use one-dimensional inputs.", "anchors": ["src/limbo/experimental/model/spgp.hpp: SPGP::_optimize_hyperparams, HyperParams"]}
{"id": "C82", "title": "When calls on a sparse Gaussian process return", "statement": "With a proper data set (equally many inputs and one-dimensional observations) a call returns exactly if there are at least as many samples as pseudo-inputs, the samples differ in every coordinate and not all observations equal the prior mean. No call returns for observations with more than one component, and an object made without data cannot be filled with add_sample alone.", "quantifier": "every history, constructor and data set; any optimizer returning a vector at least as long as its start", "why_tests_cant": "Characterises failure for all data.", "anchors": ["src/limbo/experimental/model/spgp.hpp: SPGP::compute, add_sample, recompute, optimize_hyperparams"]}
{"id": "C83", "title": "sigma and queries before computing", "statement": "For one-dimensional inputs sigma(v) is the variance of query(v); for inputs of more coordinates sigma(v) is undefined for every v. An object constructed from data cannot be queried before compute or recompute.", "quantifier": "every history and query point", "why_tests_cant": "All dimensions and histories.", "anchors": ["src/limbo/experimental/model/spgp.hpp: SPGP::sigma, SPGP(samples, observations), query"]}
{"id": "C84", "title": "optimize_hyperparams alone leaves the model between two fits", "statement": "After a fit and optimize_hyperparams(), pseudo_samples() are the new pseudo-inputs but the mean that query returns combines covariances of the new hyper-parameters with the weights of the old ones; it can have the wrong sign.", "quantifier": "every history, optimizer and query point", "why_tests_cant": "All histories; the effect depends on the random shuffle.", "anchors": ["src/limbo/experimental/model/spgp.hpp: SPGP::optimize_hyperparams, query"]}
{"id": "C85", "title": "Filtering of non-dominated points (hypervolume)", "statement": "FilterNondominatedSet(front, n, m) returns for every array of points; it permutes the first n points and leaves the others alone, and the first r points afterwards (r is the result) are exactly those points that no point dominates in the first m objectives, repetitions included.", "quantifier": "every array of points of doubles (NaN included), n, m", "why_tests_cant": "Correctness for all arrays and orders of removal; the loop removes while it iterates.", "anchors": ["src/hv/hypervol.c: FilterNondominatedSet, Dominates, Swap"]}
{"id": "C86", "title": "Hypervolume", "statement": "CalculateHypervolume of points with non-negative coordinates returns the volume of the region between the origin and the points, for two or more objectives. With one objective the result is the square of the largest value, and with points that are not above the origin it is not the dominated volume.", "quantifier": "every finite set of points, any number of objectives (exact arithmetic)", "why_tests_cant": "Equality with a measure in every dimension; recursion over objectives with in-place permutations.", "anchors": ["src/hv/hypervol.c: CalculateHypervolume, SurfaceUnchangedTo, ReduceNondominatedSet"]}
{"id": "C87", "title": "Hypervolume statistic", "statement": "The statistic HyperVolume logs one row: the current iteration and the volume of the region between -ref and the observations, if no observation is below -ref and there are two or more objectives, not more than ref has values. With more objectives it is undefined.", "quantifier": "every state of the optimizer and set of observations", "why_tests_cant": "All observation sets.", "anchors": ["src/limbo/experimental/stat/hyper_volume.hpp: HyperVolume"]}
{"id": "C88", "title": "The expected hypervolume improvement of two objectives", "statement": "For a finite set of mutually non-dominated points, none below the reference point in any objective, means mu and standard deviations s > 0, ehvi2d(P, r, mu, s) is defined (no out-of-bounds access), independent of the order of the points and of the order in which the sort leaves ties, and equals the expectation, over two independent normal variables with these means and deviations, of the area by which the random point enlarges the region dominated by P above r - exactly if the two constants of ehvi_consts.h are exact, and with the eleven-digit constants of the source up to 2.5e-10 (s1+D1)(s2+D2) per cell, (k+1)(k+2)/2 cells, where D bounds the distances of the points and the reference from the means. If a point lies below the reference point the value can be too large.", "quantifier": "every finite front (any size, duplicates allowed), reference point, mean and positive deviations", "why_tests_cant": "A closed formula over a grid of cells with an incremental correction term; a numerical test compares single fronts by Monte Carlo with a tolerance.", "anchors": ["src/ehvi/ehvi_calculations.cc: ehvi2d", "src/ehvi/helper.cc: exipsi, gausspdf, gausscdf", "src/ehvi/ehvi_consts.h"]}
{"id": "C89", "title": "What the EHVI acquisition function computes", "statement": "The population passed by the EHVI optimizer for two objectives is mutually non-dominated. The acquisition function acqui::Ehvi then returns the expected hypervolume improvement for the predicted means, but for standard deviations equal to the predicted VARIANCES of the two models: it is not the expected hypervolume improvement of the models' predictions unless the variances are 1.", "quantifier": "every front above the reference point, both models, every query point with positive predicted variance", "why_tests_cant": "Needs the identity with the expectation for all fronts; a single test cannot tell a wrong scale from another model.", "anchors": ["src/limbo/experimental/acqui/ehvi.hpp: Ehvi::operator()", "src/limbo/experimental/bayes_opt/ehvi.hpp: Ehvi::optimize"]}
{"id": "C90", "title": "A Bayesian optimizer with a GP always decides from the posterior of all its data", "statement": "In BOptimizer with model::GP, whenever an acquisition function is built or hyper-parameters are about to be optimized, model() holds exactly the finite evaluations since the last reset, in order, and its mean and variance predictions at every point are those of the Gaussian process posterior given these data (the prior if there are none), for the kernel and mean parameters it currently has; the same holds for samples()/observations() when optimize returns. While statistics are written the model lacks exactly the newest evaluation.", "quantifier": "every kernel that is a covariance function, every mean function, every hyper-parameter optimizer, objective, initialiser, acquisition function, inner optimizer and stopping criterion; every history of optimize, add_new_sample and eval_and_add calls including caught exceptions", "why_tests_cant": "It combines the optimizer's bookkeeping with the GP's incremental updates and its hyper-parameter changes over arbitrary histories; tests only look at a few final values.", "anchors": ["src/limbo/bayes_opt/boptimizer.hpp: BOptimizer::optimize", "src/limbo/bayes_opt/bo_base.hpp: BoBase", "src/limbo/model/gp.hpp: GP::compute, GP::add_sample, GP::optimize_hyperparams, GP::query", "src/limbo/model/gp/*.hpp"]}
{"id": "C91", "title": "A Bayesian optimizer with a GP never fails by itself", "statement": "If the objective always has the declared dimensions (it may throw, or return NaN or infinity), the given points are finite and of the right dimension, and initialiser, inner optimizer, criteria, statistics and hyper-parameter optimizer do their job, then no call in any history runs into a failed assertion, an out-of-range access or another undefined behaviour; with a MaxIterations criterion every optimize call ends, normally or by passing on an exception, and the object can be used further. KernelLFOpt with Rprop always does its job.", "quantifier": "every history of calls, objective (stateful, throwing, returning NaN), acquisition function and kernel of the library", "why_tests_cant": "Absence of undefined behaviour must hold for every history; a test executes one.", "anchors": ["src/limbo/bayes_opt/boptimizer.hpp: BOptimizer::optimize", "src/limbo/bayes_opt/bo_base.hpp: BoBase::eval_and_add, BoBase::_init", "src/limbo/model/gp.hpp: GP::compute, GP::add_sample", "src/limbo/model/gp/kernel_lf_opt.hpp", "src/limbo/opt/rprop.hpp"]}
{"id": "C92", "title": "What the GP statistics files contain", "statement": "With statistics enabled, every completed evaluation of the optimization loop adds exactly one row (one file for stat::GP), numbered from the last reset, in order, to each GP statistic: GPPredictionDifferences logs the value predicted at the new point from all other data, the observed value and their absolute difference (an out-of-sample error); GPAcquisitions the mean and variance there and the value of the very acquisition function with which the point was chosen; GPKernelHParams and GPMeanHParams the parameters in use when the point was chosen; stat::GP every point of the (bins+1)^d grid exactly once with the predictions and acquisition values; ConsoleSummary the new point, its value and the best value so far. Evaluations that threw or returned NaN/infinity have no row.", "quantifier": "every history of calls with one aggregator, every GP configuration, objective (stateful, throwing), acquisition function, inner and hyper-parameter optimizer", "why_tests_cant": "The content of row n depends on the moment at which statistics run relative to the model update, in every history with exceptions, resets and hyper-parameter optimization; a test sees one run.", "anchors": ["src/limbo/stat/gp_prediction_differences.hpp", "src/limbo/stat/gp_acquisitions.hpp", "src/limbo/stat/gp_kernel_hparams.hpp", "src/limbo/stat/gp_mean_hparams.hpp", "src/limbo/stat/gp.hpp", "src/limbo/stat/console_summary.hpp", "src/limbo/bayes_opt/boptimizer.hpp: BOptimizer::optimize"]}
{"id": "C93", "title": "The next point evaluated maximises the acquisition function of the posterior of all data", "statement": "In BOptimizer with a GP, GridSearch as inner optimizer and UCB (or EI) as acquisition function, every decision of every run evaluates a grid point whose upper confidence bound F(mean) + alpha*sqrt(variance) (whose expected improvement over the best prediction at a sample) is highest among all grid points, where mean and variance are those of the Gaussian process posterior given all finite evaluations since the last reset; EI with GridSearch never fails. With GP_UCB the same holds for later iterations only: in the first iteration the value is NaN everywhere, GridSearch returns uninitialised memory, and no run with at least one iteration is defined.", "quantifier": "every history of calls, GP configuration, objective (stateful, throwing), real-valued aggregator, dimension, number of bins, hyper-parameter optimizer", "why_tests_cant": "Combines the data bookkeeping, the posterior algebra, the acquisition formula and the inner search over all histories; a test can only compare a few chosen points.", "anchors": ["src/limbo/bayes_opt/boptimizer.hpp: BOptimizer::optimize", "src/limbo/acqui/ucb.hpp", "src/limbo/acqui/ei.hpp", "src/limbo/acqui/gp_ucb.hpp", "src/limbo/opt/grid_search.hpp", "src/limbo/model/gp.hpp"]}
{"id": "C94", "title": "Benchmark functions: listed solutions are the optima, reported accuracy is the regret", "statement": "For the benchmark functions Sphere, Ellipsoid, Rastrigin and GoldsteinPrice the point returned by solutions() is the one and only global optimum, and accuracy(v), called with the value v of an evaluated point, is the regret of that point: the distance of its value from the best possible one, hence zero only for the optimum. BraninNormalized has exactly three optima in the search box; the first two listed solutions are optima, the third is a rounded one, so accuracy differs from the regret by at most 1e-10 and is zero for a point that is not an optimum. The listed solutions of SixHumpCamel are rounded too: they are within 1e-4 of the best possible value, accuracy is within 2e-4 of the regret, and a better point gets a larger accuracy than the listed one.", "quantifier": "every point of the (unbounded) input space and every point that is a global optimum", "why_tests_cant": "a statement about all points of a continuum: tests compare with finitely many points and cannot exclude a better one", "anchors": ["src/benchmarks/limbo/testfunctions.hpp: Sphere, Ellipsoid, Rastrigin, GoldsteinPrice, BraninNormalized, SixHumpCamel, Benchmark::accuracy", "src/benchmarks/limbo/bench.cpp: benchmark"]}
{"id": "C95", "title": "Hyper-parameters set on a GP survive fitting while the dimensions stay the same", "statement": "On a GP constructed with its dimensions, kernel and mean hyper-parameters are changed by set_h_params only: after every sequence of fits, added samples, recomputations, likelihood and gradient computations with data of these dimensions the functors are those produced by the settings alone, and h_params() returns the last setting. A GP constructed without dimensions forgets everything set before its first data; a fit to data of another input (output) dimension resets the kernel (mean function).", "quantifier": "every kernel and mean class, every sequence of calls (except reading an archive), every position of the setting in it", "why_tests_cant": "the claim is about every history of calls; a test sees one history, and the default constructor behaves well unless parameters were set before data", "anchors": ["src/limbo/model/gp.hpp: GP(), GP(int,int), compute, add_sample, recompute, kernel_function, mean_function", "src/limbo/kernel/kernel.hpp: set_h_params, h_params"]}
{"id": "C96", "title": "compute(samples, observations, false) does not refresh predictions until recompute", "statement": "compute(…, false) stores the data but not the covariance: on a GP without data every prediction is then undefined; on a GP with the same points and a mean function independent of the observations all predictions stay those of the old observations (a concrete case shows they differ from those of the new ones). In every history a following recompute() makes the GP identical to one fitted to the new data at once.", "quantifier": "every GP, every history of calls, every data set, every query point", "why_tests_cant": "needs all data sets and histories; a test that always computes the kernel never sees it", "anchors": ["src/limbo/model/gp.hpp: compute, recompute, query, mu, sigma"]}
{"id": "C97", "title": "Result directories and log files", "statement": "The name of an optimizer's result directory determines the host, the local time to the second and the process that created it, and nothing else does: two optimizers share a directory exactly if all three agree. Optimizers in different directories never disturb each other's logs: however the calls of the statistics of all optimizers interleave, and whatever the disk held before, every log file contains exactly what its own statistic printed, in order, and no other file is touched. The precondition matters: the first call of a statistic empties its file, so an optimizer constructed by the same process within the same second erases the log of the other. A host name of 50 characters or more makes construction fail.", "quantifier": "all host names, valid local times and process numbers; all sets of optimizers and statistics, all interleavings of their constructions and calls, all previous contents of the disk", "why_tests_cant": "the name must be decodable for every host name (which may contain the separator) and the interleavings are unbounded; collisions need exact timing", "anchors": ["src/limbo/bayes_opt/bo_base.hpp: _make_res_dir, res_dir", "src/limbo/tools/sys.hpp: date, hostname, getpid", "src/limbo/stat/stat_base.hpp: _create_log_file"]}
{"id": "C98", "title": "Gradient ascent converges on concave objectives and its momentum is the documented one", "statement": "In exact arithmetic, gradient ascent without momentum on a concave objective whose curvature is at most L, with a learning rate of at most 1/L, bounded or not: the run ends, its result is feasible and never worse than the (clamped) starting point, and after T iterations it is below any feasible point y by at most |start - y|^2 / (2 alpha T); if it stopped early it is below y by at most (eps |result - y| + eps^2/2) / alpha. In general every step is alpha times the gradients seen so far, each iteration back weighted with a further factor gamma, clamped to the box if bounded; with the Nesterov option the gradient is taken where the momentum alone would lead. Exactly the parameters with alpha >= 0 and 0 <= gamma < 1 are accepted.", "quantifier": "all dimensions, all concave smooth objectives, all starting points, iteration counts and parameters, bounded or not", "why_tests_cant": "a convergence rate speaks about all objectives of a class and all iteration counts", "anchors": ["src/limbo/opt/gradient_ascent.hpp: GradientAscent::operator()"]}
{"id": "C99", "title": "Adam's steps are bias-corrected averages", "statement": "In exact arithmetic, for every objective with real gradients: each step of Adam is, in every coordinate, alpha times the exponentially weighted average (b1) of the partial derivatives seen so far divided by the root of the exponentially weighted average (b2) of their squares plus 1e-8, where the weights sum to one from the first iteration on; the new point is clamped to the box if bounded, and the run stops early only if the last step was shorter than eps_stop. In particular on a linear objective each of the iterations moves each coordinate by alpha g / (|g| + 1e-8).", "quantifier": "all dimensions, objectives, starting points, iteration counts and admissible parameters, bounded or not", "why_tests_cant": "the closed form must hold for every sequence of gradients and every number of iterations", "anchors": ["src/limbo/opt/adam.hpp: Adam::operator()"]}
{"id": "C100", "title": "Upper confidence bounds hold with the advertised probability", "statement": "On a fitted Gaussian process UCB_IMGPO is the aggregated predictive mean plus sqrt(2 log(pi^2 M^2/(12 nu))) + 0.2 predictive standard deviations, for every M >= 1 and 0 < nu <= 0.8. If the M-th evaluation (M = 1, 2, ...) is made at any point with any model whose prediction there is normal, then the probabilities that the objective lies above the returned bound add up, over all evaluations, to at most nu. Likewise for GP_UCB over the iterations t = 1, 2, ...: they add up to at most delta/4. For nu near 1 (for example 0.9) the bound is NaN for M = 1.", "quantifier": "all GPs, all data, all aggregators, all M and t, all sequences of models and query points", "why_tests_cant": "a statement about infinitely many evaluations and about probabilities", "anchors": ["src/limbo/experimental/acqui/ucb_imgpo.hpp: UCB_IMGPO::operator()", "src/limbo/acqui/gp_ucb.hpp: GP_UCB"]}
{"id": "C101", "title": "Bayesian optimization with a MultiGP decides from all the data", "statement": "When BOptimizer is used with model::MultiGP, at every moment at which an acquisition function is built or the hyper-parameters are optimized, and when optimize returns, the model holds exactly the finite evaluations since the last reset, in order, and for every output its predicted variances are those of the Gaussian process posterior given these data with the kernel of that output. If the mean function does not look at the observations, its mean predictions are the posterior means as well. With mean::Data they are not: one initial point and one iteration suffice for optimize to return with a model whose mean predictions are wrong for the data it holds.", "quantifier": "all kernels of the library, mean functions, hyper-parameter optimizers (none or ParallelLFOpt with any inner optimizer), initialisers, acquisition functions, inner optimizers, stopping criteria, statistics, objectives (also throwing or returning NaN), and all histories of calls of the optimizer", "why_tests_cant": "Tests check a MultiGP on a few samples and the optimizer with a GP; the agreement of the sub-models with the data after every mixture of fits, additions, hyper-parameter changes and resets is a statement about all histories.", "anchors": ["src/limbo/bayes_opt/boptimizer.hpp:BOptimizer::optimize", "src/limbo/model/multi_gp.hpp:MultiGP", "src/limbo/model/multi_gp/parallel_lf_opt.hpp:ParallelLFOpt"]}
{"id": "C102", "title": "Bayesian optimization with a SparsifiedGP decides from the right part of the data", "statement": "When BOptimizer is used with model::SparsifiedGP, at every moment at which an acquisition function is built or the hyper-parameters are optimized, and when optimize returns, the model is a Gaussian process posterior given a part of the finite evaluations since the last reset, in their original order: all of them as long as there are at most max_points, and exactly max_points of them when there are more (points in the unit box, max_points at least the dimension). The part need not contain the newest evaluation: there is a run whose only iteration leaves the model unchanged.", "quantifier": "all kernels of the library, mean functions, hyper-parameter optimizers, dimensions below 2^31, limits, schedules of the parallel loop, initialisers, acquisition functions, inner optimizers, stopping criteria, statistics, objectives, and all histories of calls of the optimizer", "why_tests_cant": "Thinning happens again and again on what an earlier thinning left, mixed with refits from the complete data, hyper-parameter changes and resets; that the model never mixes up pairs, exceeds its limit or thins too early is a statement about all histories and schedules.", "anchors": ["src/limbo/bayes_opt/boptimizer.hpp:BOptimizer::optimize", "src/limbo/model/sparsified_gp.hpp:SparsifiedGP"]}
{"id": "C103", "title": "How far GP predictions can be from the function that produced the data", "statement": "Let the observations held by an up-to-date GP be values of a function f that is the prior mean plus a finite combination of kernel functions of squared norm at most B^2 (on points of the input dimension). Then at every point the predicted mean is within B*sqrt(reported variance - noise + DBL_EPSILON) of f; if the kernel's noise is at least DBL_EPSILON the true value lies within B reported standard deviations of the predicted mean. At a point observed n times the reported variance is at most noise + (noise+1e-8)/n and the predicted mean is within B*sqrt((noise+1e-8)/n) of f. At a point within squared kernel distance w of n observed points the reported variance is at most noise + (noise+1e-8)/n + w and the predicted mean is within B*sqrt((noise+1e-8)/n + w) of f.", "quantifier": "every reachable up-to-date GP state (any history of compute, add_sample, recompute, parameter changes), every kernel and mean of the library, every such function, norm, data set and query point", "why_tests_cant": "It relates the predictions at infinitely many points to every function of bounded norm and every data set; a test sees one function at some points.", "anchors": ["src/limbo/model/gp.hpp:GP::query", "src/limbo/model/gp.hpp:GP::mu", "src/limbo/model/gp.hpp:GP::sigma", "src/limbo/kernel/kernel.hpp:BaseKernel::operator()"]}
{"id": "C104", "title": "Bayesian optimization with UCB converges to the best grid point", "statement": "Let f be a function whose difference from the GP's prior mean has kernel norm at most the alpha of UCB, with a mean function that does not depend on the data, a noise of at least DBL_EPSILON and hyper-parameters that are not optimized (hp_period <= 0), and let every evaluation (also those given by hand) be a value of f. With GridSearch (b+1 values per axis, d inputs) as optimizer of the acquisition function, at every decision made with some data the next point x is a grid point and no grid value of f exceeds f(x) by more than 2*alpha reported standard deviations at x. After a run of more than n*(b+1)^d iterations the best observation is within 2*alpha*sqrt(noise + (noise+1e-8)/n) of the largest value of f on the grid. The first run of such an optimizer does return normally.", "quantifier": "every kernel, every such f, alpha, grid, initialiser, statistics, number of iterations, and every history of previous runs, hand-given points and caught exceptions", "why_tests_cant": "A statement about all functions of a norm ball and all numbers of iterations; it is a regret bound, not a property of any single run.", "anchors": ["src/limbo/bayes_opt/boptimizer.hpp:BOptimizer::optimize", "src/limbo/acqui/ucb.hpp:UCB", "src/limbo/opt/grid_search.hpp:GridSearch", "src/limbo/model/gp.hpp:GP"]}
{"id": "C105", "title": "Bayesian optimization with MultiGP or SparsifiedGP never fails by itself", "statement": "Let BOptimizer use a MultiGP, or a SparsifiedGP with max_points at least the input dimension, with a covariance function of the library and any mean function. If the initialiser and the optimizer of the acquisition function return finite points of the right dimension (or throw), criteria and statistics do not fail when the model answers queries, the hyper-parameter optimizer does not fail on an up-to-date model (ParallelLFOpt with Rprop never does), the objective always returns the same number of values, which for a MultiGP is its dim_out(), and points given by hand have the right dimensions, then no call of any history of calls runs into undefined behaviour: no assertion fails, no access is out of range. With MaxIterations every run ends, normally or by passing on an exception, and any history can be executed. With a MultiGP a wrong dim_out() makes a run undefined, although a GP tolerates it.", "quantifier": "every history of optimize, add_new_sample and eval_and_add calls, every configuration, kernel and mean function, schedule of the parallel loops, content of uninitialised memory and objective (also one that throws or returns NaN)", "why_tests_cant": "the assertions depend on what all previous calls left in the model; tests follow a few histories, in debug builds only", "anchors": ["bayes_opt/boptimizer.hpp: BOptimizer::optimize", "model/multi_gp.hpp: MultiGP", "model/sparsified_gp.hpp: SparsifiedGP", "model/multi_gp/parallel_lf_opt.hpp: ParallelLFOpt"]}
{"id": "C106", "title": "The Pareto statistics write the front of all the data of the moment", "statement": "With the statistic ParetoFront, BOptimizer, Ehvi and Nsbo write after every completed evaluation of the optimization loop one file, numbered by the iteration in its run, containing exactly the stored pairs (sample, observation) whose observation no stored observation dominates, the newest pair included, each once per occurrence, in descending lexicographic order of the observations, whatever the schedule of the parallel loops. In the end file i holds the front at the last refresh with number i; a run that continues an earlier one overwrites the files of the earlier one. With one objective the statistic fails an assertion. ParetoBenchmark leaves the data alone and writes all the data, the observations of their Pareto front, the points found on models fitted to all the data (newest included) with the standard deviations of those models, and the true values at the same points in the same order; without data, or with one objective, it is undefined.", "quantifier": "every history of calls on the optimizer (runs with and without reset, exceptions, added samples), every configuration, objective, pareto_set result and schedule", "why_tests_cant": "which pairs are on the front depends on all previous evaluations and the order of the rows on a parallel loop; the overwriting of files only shows when runs are continued", "anchors": ["experimental/stat/pareto_front.hpp: stat::ParetoFront", "experimental/stat/pareto_benchmark.hpp: stat::ParetoBenchmark", "experimental/tools/pareto.hpp: pareto_set", "bayes_opt/bo_base.hpp: _update_stats"]}
{"id": "C107", "title": "A run ended by MaxPredictedValue comes with a certificate on the grid", "statement": "With a Gaussian process and the stopping criterion MaxPredictedValue using GridSearch, a run that returns before its maximal number of iterations has, at every point of the grid, a predicted value (posterior given all stored data) whose multiple by the ratio is below the best observed value. The criterion decides exactly this, without failing as long as predictions are not below -1e308. For an objective of kernel norm at most B around the prior mean (hyper-parameters not optimized) it follows that ratio * (f - B * standard deviation) is below the best observed value on the whole grid; and with a ratio below one a run is never ended this way with a best value clearly below zero at a grid point: (1 - ratio) * best > - ratio * B * sqrt(2 noise + 1e-8).", "quantifier": "every history of calls, configuration, objective (of bounded kernel norm for the last two parts), aggregator with finite values, grid, ratio >= 0", "why_tests_cant": "the answer of the criterion depends on the posterior given the whole history and on a maximisation over the grid; that it never fires for negative values is a statement about all runs", "anchors": ["stop/max_predicted_value.hpp: stop::MaxPredictedValue", "opt/grid_search.hpp: opt::GridSearch", "bayes_opt/boptimizer.hpp: optimize", "model/gp.hpp: mu"]}
{"id": "C108", "title": "Every pass of IMGPO refines a best leaf, and every run ends", "statement": "In every pass of IMGPO's main loop that ends normally, some leaf whose stored value is highest among all leaves is split into three (its middle third keeps the stored value), unless the pass made an evaluation whose first component reaches that value; in every case the pass adds at least two leaves. After n passes at most 1 + 3n(n+1)/2 evaluations were made besides the initialiser's and no cell is deeper than n. Hence optimize never runs for ever, whatever the stopping criteria: it returns, throws, or exceeds the 1000 levels of its tree, which is undefined behaviour; if the criteria never say stop and nothing throws, it is always the last.", "quantifier": "every dimension d>0, model, acquisition function, finite estimates, objective, aggregator with values above -infinity on finite vectors, list of criteria, number of passes; runs that reset or start on a new object; over exact reals", "why_tests_cant": "All trees, all runs; the bound for the termination is astronomic (3^999 passes).", "anchors": ["src/limbo/experimental/bayes_opt/imgpo.hpp: IMGPO::optimize, TreeNode, _init_tree"]}
{"id": "C109", "title": "Bayesian optimization with UCB and any optimizer of the acquisition function converges on the whole search space", "statement": "Let a BOptimizer use a Gaussian process whose hyper-parameters are not optimized, UCB, the stopping criterion MaxIterations(N) and any optimizer of the acquisition function; let the objective f have kernel norm at most UCB's alpha around the prior mean, and let every point that the optimizer of the acquisition function found in this run have an upper confidence bound within eps of the highest on a set S (for instance the unit box). Then at every decision with data no value of f on S exceeds that at the point evaluated by more than eps + 2*alpha reported standard deviations there; and if S is divided into m cells of squared kernel diameter at most w and N > n*m, the best observation is within eps + 2*alpha*sqrt(noise + (noise+1e-8)/n + w) of every value of f on S. The unit box of dimension d has m^d cells with w = L*d/m^2, L = sigma_sq/l^2 for Exp, 6*sigma_sq/l^2 for MaternThreeHalves and 10*sigma_sq/l^2 for MaternFiveHalves; so for every delta > 0 there is an N0, the same for all such objectives, from which on the best observation is within eps + 2*alpha*sqrt(noise) + delta. With an optimizer of the acquisition function that is accurate within eps on every bounded objective, the first run of a new BOptimizer ends without failure and meets the bound.", "quantifier": "every kernel and mean in the model with a data-independent prior mean, noise >= 2^-52, dimension, objective of bounded kernel norm, set S of points, division into cells, history of previous optimize calls on the same objective, optimizer of the acquisition function, initialiser, N, n, eps; over exact reals", "why_tests_cant": "The claim is about all objectives of a function class, all optimizers and a continuum of points.", "anchors": ["src/limbo/bayes_opt/boptimizer.hpp: BOptimizer::optimize", "src/limbo/acqui/ucb.hpp: UCB::operator()", "src/limbo/model/gp.hpp: GP::query, add_sample", "src/limbo/kernel/exp.hpp", "src/limbo/kernel/matern_three_halves.hpp", "src/limbo/kernel/matern_five_halves.hpp"]}
{"id": "C110", "title": "Adding a constant to the objective does not change the search", "statement": "Let two BOptimizers with a Gaussian process with mean::Data (limbo's default), no hyper-parameter optimization and EI, UCB or GP_UCB get the same calls (optimize, add_new_sample, eval_and_add), the first with an objective f and the second with f plus a constant vector (user-supplied observations shifted alike; the objective may be noisy or throw), and let both histories run without undefined behaviour. Then both evaluate the same points in the same order, their observations differ by the constant, they count the same iterations, best_sample is the same and best_observation differs by the constant. This holds for every initialiser, stopping criterion and inner optimizer that does not look at the values of the observations; for UCB and GP_UCB the inner optimizer must choose the same point for objectives that differ by a constant, which GridSearch does. With a zero prior mean instead of mean::Data it is false.", "quantifier": "every kernel in the model, dimension, number of outputs, constant, objective, history of calls, aggregator that turns the shift into a constant, blind initialiser, stopping criteria and inner optimizer; over exact reals", "why_tests_cant": "It compares pairs of runs for all objectives and all histories.", "anchors": ["src/limbo/bayes_opt/boptimizer.hpp: BOptimizer::optimize, best_sample, best_observation", "src/limbo/mean/data.hpp", "src/limbo/acqui/ei.hpp", "src/limbo/acqui/ucb.hpp", "src/limbo/acqui/gp_ucb.hpp", "src/limbo/opt/grid_search.hpp", "src/limbo/model/gp.hpp"]}
{"id": "C111", "title": "The logs of the best evaluation show the running best", "statement": "Whatever way a call of optimize ends (normally or by an exception of the evaluator), the file of stat::BestSamples (best_samples.dat; likewise BestObservations and BestAggregatedObservations) has got a header line if no iteration had been made before, followed by exactly one row per iteration that stored an evaluation, numbered consecutively and continuing the numbering of earlier runs when the optimizer is resumed. The row of an iteration shows the sample (observation, aggregated value) of the best of all evaluations known after that iteration (those of earlier runs, the initial points, and those of the iterations so far), the earliest one in case of ties. So the logged best value never decreases.", "quantifier": "every history of calls before, every objective, aggregator without NaN values, model, initialiser, acquisition function, inner optimizer, list of stopping criteria and of statistics; resumed and fresh runs; every way of ending", "why_tests_cant": "It relates a whole file to the whole history for all histories and all ways a run can end.", "anchors": ["src/limbo/stat/best_samples.hpp: BestSamples", "src/limbo/stat/best_observations.hpp: BestObservations", "src/limbo/stat/best_aggregated_observations.hpp: BestAggregatedObservations", "src/limbo/bayes_opt/boptimizer.hpp: BOptimizer::optimize, best_sample, best_observation", "src/limbo/bayes_opt/bo_base.hpp: BoBase::_update_stats"]}
{"id": "C112", "title": "Ehvi with Gaussian processes evaluates the grid point of largest expected hypervolume improvement", "statement": "An optimizer Ehvi with two objectives, a Gaussian process for each objective (positive noise parameter), grid search as inner optimizer, and observations above the reference point (a) does not fail: from any non-empty set of initial points a run with a budget of N iterations returns after evaluating exactly N further points; (b) every point it evaluates after the initial ones is a point of the search grid at which the expected enlargement of the volume dominated by all observations so far is largest, when the objectives at a point are taken as independent Gaussians whose means are the posterior means given all data and whose standard deviations are the posterior variances (the code passes the variance where a standard deviation is expected); (c) with the eleven-digit constants of the source this holds up to an explicit error.", "quantifier": "every kernel and mean function, noise, objective, initialiser, number of bins and dimensions, number of iterations, history of earlier calls, schedule of the parallel loop, order in which std::sort leaves ties", "why_tests_cant": "It is about the values of integrals of Gaussians given arbitrary data, maximised over a whole grid, in every iteration of every run.", "anchors": ["src/limbo/experimental/bayes_opt/ehvi.hpp: Ehvi::optimize", "src/limbo/experimental/acqui/ehvi.hpp: Ehvi", "src/ehvi/ehvi_calculations.cc: ehvi2d", "src/limbo/experimental/bayes_opt/bo_multi.hpp: BoMulti", "src/limbo/model/gp.hpp: GP", "src/limbo/opt/grid_search.hpp: GridSearch"]}
{"id": "C113", "title": "CBOptimizer decides by what it has observed", "statement": "The points the constrained optimizer evaluates depend on the results of its earlier evaluations. FALSE in the code when no statistic and no stopping criterion calls best_observation or best_sample (for example with statistics disabled and MaxIterations): then two runs from the same state on two objectives that agree on the initial points, and return anything else elsewhere, evaluate exactly the same points and end with the same two models. TRUE again, on an example, as soon as a statistic looks at the best observation.", "quantifier": "every pair of objectives, models, acquisition function, inner optimizer, starting points and stopping criteria that do not read the stored observations, number of constraints, hyper-parameter period, history before the run", "why_tests_cant": "Non-interference relates pairs of runs on arbitrary objectives; no finite set of objectives shows that results are never used.", "anchors": ["src/limbo/experimental/bayes_opt/cboptimizer.hpp: CBOptimizer::optimize, best_observation, _split_observations"]}
{"id": "C114", "title": "ParEGO decides from one scalarisation of all its data", "statement": "With the experimental Parego optimizer, every time a point is chosen (and when the hyper-parameters are optimized, and when optimize returns) the model is the Gaussian process posterior given exactly the finite evaluations since the last reset, with all the objective vectors - old and new - scalarised by the augmented Tchebycheff value for one and the same non-negative weight vector; statistics see all evaluations but the newest. With EI or UCB on a grid, the next point evaluated maximises the expected improvement (upper confidence bound) of that posterior over the grid. With well-behaved components no call has undefined behaviour and optimize ends.", "quantifier": "every kernel and mean functor, number of inputs and objectives, rho, draws of weights that are non-negative and not all zero, hyper-parameter functor, history of optimize / add_new_sample / eval_and_add calls, objective and configuration", "why_tests_cant": "The model is rebuilt with fresh random weights at each step; that no old scalarised value survives, for any draw and history, is an invariant over unbounded runs.", "anchors": ["src/limbo/experimental/bayes_opt/parego.hpp: Parego", "src/limbo/experimental/model/gp_parego.hpp: GPParego::compute, add_sample, _scalarize_obs", "src/limbo/bayes_opt/boptimizer.hpp: BOptimizer::optimize"]}
{"id": "C115", "title": "Seeding a random generator restarts its sequence", "statement": "After seed(s) with s >= 0, a RandomGenerator gives the numbers a new generator with the same parameters and seed s gives, whatever was drawn before. TRUE for the uniform generators (rgen_double_t, rgen_int_t). FALSE for rgen_gauss_t: after an odd number of draws since the last reset() the first number after seeding does not depend on the seed, and the sequence of the seed starts only after it; after an even number it restarts. seed(s) together with reset(), in either order, always restarts. The numbers of a new generator with seed s are made by the engine seeded with s, each from the state the draw before left (for Gaussian numbers: pair by pair, both numbers of a pair in order, scaled by the standard deviation and shifted by the mean).", "quantifier": "every history of rand, seed, reset and param calls, engine, seed, parameters, number of numbers drawn afterwards", "why_tests_cant": "A test that seeds a new generator, or draws an even number of values before reseeding, passes; the claim is about every history.", "anchors": ["src/limbo/tools/random_generator.hpp: RandomGenerator::seed, rand, reset, param"]}
{"id": "C116", "title": "Random generators and threads", "statement": "With one generator per thread (as random_vector uses) every thread gets exactly the sequence of its own generator, for every schedule. Calls of rand on a shared generator that do not overlap give out every number exactly once, in order. The class comment says it is mutex-protected; FALSE in the code: from every state there is a schedule of two overlapping calls in which both threads get the same number and a draw is lost (in C++ a data race).", "quantifier": "every number of threads, schedule of their steps, generator state, distribution", "why_tests_cant": "Schedules cannot be enumerated by a test, and the race shows rarely.", "anchors": ["src/limbo/tools/random_generator.hpp: RandomGenerator, random_vector_bounded, random_vector_unbounded"]}
{"id": "C117", "title": "GP predictions do not depend on the origin (or orientation) of the input space", "statement": "Moving all samples and the query point by one vector changes neither the predicted mean, nor the predicted variance, nor the log-likelihood of a GP with one of limbo's kernels and a mean function that ignores its input (NullFunction, Constant, Data). With the isotropic kernels (Exp, MaternThreeHalves, MaternFiveHalves) the same holds for every distance-preserving map of the input space: rotations, reflections, exchange of coordinates.", "quantifier": "every earlier history of the GP, data set, input and output dimension, translation or isometry, query point", "why_tests_cant": "The claim relates two fits for every data set and every map; a test compares one pair.", "anchors": ["src/limbo/model/gp.hpp: GP::compute, mu, sigma, compute_log_lik", "src/limbo/kernel/*.hpp: kernel", "src/limbo/mean/*.hpp: operator()"]}
{"id": "C118", "title": "GP means are linear in the observations, outputs do not mix, variances ignore the observations", "statement": "For data sets at the same inputs: if one output column is a linear combination of two others (possibly of GPs with another number of outputs), so are the predicted means at every point, for the NullFunction and Data means. In particular each output of a multi-output GP is predicted exactly as by a GP given only that output. The predicted variance does not depend on the observed values or on the number of outputs, for every mean function.", "quantifier": "every earlier history of the GP, inputs, observations, output dimensions, coefficients, query point", "why_tests_cant": "A relation between different fits, for all data and query points.", "anchors": ["src/limbo/model/gp.hpp: GP::compute, mu, sigma, _compute_alpha, _compute_obs_mean"]}
{"id": "C119", "title": "Exceptions out of optimize come from outside, otherwise it returns", "statement": "With a model whose operations do not throw, an exception leaving BOptimizer::optimize was raised by the last thing done: the objective threw, or returned a non-finite value (EvaluationError), at a point proposed by the initialiser or by the optimizer of the acquisition function; or that optimizer threw. Nothing is done after it. A BOptimizer with a Gaussian process, MaxIterations, grid search and an objective that is finite on the proposed points always returns normally, after any history, having taken exactly the configured number of decisions, with the model fitted to all its data. The same holds with a MultiGP, a SparsifiedGP and ParEGO, whenever the optimizer of the acquisition function does not throw.", "quantifier": "every history of calls, objective, components, number type (first part), data", "why_tests_cant": "All histories and objectives, including those that fail late.", "anchors": ["src/limbo/bayes_opt/boptimizer.hpp: BOptimizer::optimize", "src/limbo/bayes_opt/bo_base.hpp: add_new_sample, eval_and_add, _init"]}
{"id": "C120", "title": "The regression benchmark's functions are the ones they claim to be", "statement": "Of the functions of the regression benchmark: Rastrigin, Ackley and Levy in every dimension, Bukin N.6 and the drop-wave function have one and only one global minimizer, the documented one, in their box, with the documented value (0, or -1 for drop-wave). Cross-in-tray and Hoelder table have the documented upper bounds, zero sets and symmetries. RobotArm is independent of the first angle, at most the sum of the segment lengths and equal to it for the stretched arm. PistonSimulation is the period of small oscillations about the equilibrium of the piston. The two inverse-dynamics functions are the Euler-Lagrange torques of a planar arm of two uniform rods, along every motion. Hartmann6 is positive and at most 8.4 (minus the function of the page it cites). Every point the benchmark draws lies in the box of its function, which is defined there, and the noise it adds has a twentieth of the standard deviation of the observations. Schwefel is never negative in its box, in any dimension, and at most 4e-5 per coordinate at the documented minimizer. SixHumpCamel is at least -1.0317, nearly reached at its two documented minimizers. OTLCircuit is the node voltage for which the currents of the circuit balance. GramacyLee oscillates about (x-1)^4 with amplitude at most 1/(2x), meeting it exactly at the multiples of a tenth. Step is constant on both sides of its jump, where no continuous function approximates it better than to 1/2. Hartmann6 is minus the function of the page it cites.", "quantifier": "every vector (any dimension where the function accepts any), every motion, every draw from the unit cube, every list of at least two observations", "why_tests_cant": "Global minima, symmetries and laws of motion are statements about all points and all motions.", "anchors": ["src/benchmarks/regression/test_functions.hpp: Rastrigin, Ackley, Bukin, CrossInTray, DropWave, HolderTable, Levy, Hartmann6, RobotArm, PistonSimulation, PlanarInverseDynamicsI, PlanarInverseDynamicsII, GramacyLee, Step, Schwefel, SixHumpCamel, OTLCircuit", "waf_tools/benchmark_template.cpp: sample_covariance, benchmark"]}
{"id": "C121", "title": "NSBO with Gaussian processes evaluates the most uncertain point of its front", "statement": "With one Gaussian process per objective, every point Nsbo evaluates after the initial ones is a point of the front that the evolutionary algorithm returned on models fitted to all data before it, and no point of that front has a larger reported posterior variance given the points evaluated so far. All models report the same variance, so the test for non-domination of the vectors of standard deviations is a maximisation of one number, and the observed values play no part in the choice among the points of the front. A first run with two real-valued objectives, a non-empty initialisation and non-empty fronts of finite points of the right dimension returns normally after exactly the budgeted number of evaluations.", "quantifier": "every kernel and mean function with the usual laws, every number of objectives (two for the run), every evolutionary algorithm that returns points without NaN or infinite coordinates, every schedule and tie order of pareto_set, every history of calls, every objective", "why_tests_cant": "The claim is about every iteration of every run, for every result of the evolutionary algorithm and every schedule of the parallel Pareto computation.", "anchors": ["src/limbo/experimental/bayes_opt/nsbo.hpp: Nsbo::optimize", "src/limbo/experimental/bayes_opt/bo_multi.hpp: update_pareto_model, _update_models", "src/limbo/experimental/tools/pareto.hpp: pareto_set", "src/limbo/model/gp.hpp: GP::compute, GP::sigma"]}
