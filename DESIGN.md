# Formal model of resibots/limbo in Lean 4 — design

Source: `/repo` (limbo, header-only C++ Bayesian-optimisation library). All line numbers refer to that tree.
Lean project: `/verif/lean` (Lean 4.33.0 + Mathlib, modules imported one at a time).

## 1. How numbers are modelled

The C++ code computes with IEEE-754 `double`. Three levels are used, chosen per property:

* **Level A — arbitrary arithmetic.** Control-flow code (optimizers, best-so-far tracking, clamping, par::max, Pareto,
  sparsification, BO loop) is written once over a type class `Scalar` that only names the operations
  (`add`, `mul`, `lt`, `isNaN`, ...). Theorems then only assume the *comparison* laws every IEEE type has
  (`LawfulCmp`: comparisons with NaN are false, the rest is a total preorder; no antisymmetry because of ±0).
  Additions, multiplications, divisions stay uninterpreted, so such a theorem holds for doubles with any rounding.
* **Level B — exact reals.** Linear algebra, kernels, likelihoods, gradients: over `ℝ`. Rounding is *not* modelled.
  Divisions and square roots are shown to be applied to admissible operands (`x ≠ 0`, `x ≥ 0`) so that Lean's
  totalised `x / 0 = 0`, `√(-1) = 0` are never what makes a theorem true.
* **Level C — concrete binary64.** A computable model `F64` of doubles (NaN, ±inf, rationals rounded
  to nearest-even with 53 bits; −0 is identified with +0) used for floating-point counter-examples, evaluated by the kernel.

## 2. Conventions

* One `namespace Limbo`. `Verif/Basic/*` shared vocabulary; `Verif/Model/*` model of the code (each definition cites file:lines);
  `Verif/Spec/*` small independent specifications; `Verif/Lemmas/*` helper lemmas;
  `Verif/Props/*` the property theorems, named `Cnn_...`, each followed by a non-vacuity `example`.
* C++ exceptions are explicit outcomes; undefined behaviour (out-of-range access, dereferencing `end()`, failed `assert`, use of
  uninitialised memory) is a distinct outcome `ub` (or `none` where documented); uninitialised matrix entries are an arbitrary
  function parameter (`junk`) and theorems hold for every value of it.
* Randomness is an arbitrary stream / oracle, parallel schedules are arbitrary reduction trees or permutations of iterations.
  User callbacks (objective, aggregator, inner optimizer) are arbitrary functions, where useful also of the call history.

## 3. Trusted base

* Lean's kernel (`lake build` + `#print axioms`): only `propext`, `Classical.choice`, `Quot.sound`. No own axioms, no `sorry`,
  no `native_decide`, no `bv_decide`.
* The reading of the C++ sources by the author: the model is hand-written.
* Semantics assumed of libraries: Eigen `LLT` (lower-triangular factor with positive diagonal of a PD matrix — it is a *parameter*
  with that contract, and the contract is proved satisfiable), triangular solves (modelled as forward/backward substitution), `std::` algorithms
  (`max_element` = first maximum, `partial_sort`, `sort`, `copy_if`), TBB `parallel_reduce` = some reduction tree over consecutive chunks,
  TBB `parallel_for` = some order of the iterations with atomic critical sections, NLopt/libcmaes as black boxes,
  iostream formatting as an abstract formatter, `<random>`: an engine with a seedable state, distributions that keep nothing between draws
  except `normal_distribution`, which keeps the second number of each pair (as in libstdc++; C115).
* Not modelled: compile-time template plumbing (Boost.Parameter), performance, memory allocation failure, OS-level file errors,
  data races other than through the schedule abstraction, Eigen expression aliasing, examples, benchmark drivers (only their test functions are modelled, C94), waf scripts.
  Of the library itself: `stat/gp_likelihood.hpp` (does not compile), the three-objective routines of `ehvi`, `external/rand_utils.hpp` (entropy for
  seeds), the two Hartmann functions of `benchmarks/limbo`, and the members of SPGP named below.

## 4. Plan per property

| id | what is modelled | how it is proved |
|----|------------------|------------------|
| C01 | BoBase/BOptimizer as state machine over `Except`-like outcomes, ghost trace of objective calls | invariant over every op of a history |
| C02 | `add_new_sample`, `is_nan_or_inf` over `Scalar` | case analysis + invariant over histories |
| C03 | `best_observation`, `best_sample`, `std::max_element` | induction on the list, Level A (NaN caveat proved by counter-example) |
| C04 | `optimize` loop with fuel, `MaxIterations` | induction on remaining iterations; termination = fuel bound |
| C05 | `_init` | from the model + prefix lemma |
| C06 | loop with a lawful model interface (`data` view) | loop invariant model.data = bo.data at acquisition time |
| C07 | hp_period test in the loop, ghost counter | induction, `Nat.div` arithmetic |
| C08 | `ChainCriteria` fold, criteria | induction on the list with a trace of consulted criteria |
| C09 | composition of C11/C13/C14/C15/C21 with loop | invariant on trace of objective calls |
| C10 | stats writers as functions appending rows | induction over iterations / runs |
| C11 | `RandomSampling`, `NoInit` | induction on count |
| C12 | `GridSampling::_explore` recursion + `while x<=1` loop | exact: induction over ℚ; rounding: `F64` witness by kernel evaluation |
| C13 | `RandomSamplingGrid` | direct |
| C14 | `random_lhs` with permutations | bijection argument on strata |
| C15 | `Rprop::operator()` loop | Level A invariant (bounds, best-visited, trace) |
| C16 | `GradientAscent` | Level A invariant |
| C17 | `Adam` | Level A invariant + Level B operand checks |
| C18 | `GridSearch::_inner_search` recursion | exact arithmetic induction on dimension; uninitialised result = explicit outcome |
| C19 | same over ℚ and `F64` | induction / kernel evaluation |
| C20 | `ParallelRepeater` over any reduction tree | via C24 |
| C21 | `Chained` list recursion, `RandomPoint` | induction |
| C22 | `NLOptBase` object state machine with NLopt as a parameter | trace of library calls; negation by witness |
| C23 | `Cmaes` wrapper with libcmaes as a parameter; settings as the sequence of setter calls | order reversal; replay of the setters against a table taken from the documentation |
| C24 | `par::max` over all chunkings/trees | structural induction on the tree |
| C25 | `par::loop` etc. as permutations of iterations | `List.Perm` induction |
| C26 | GP state with dynamic matrices, `compute`, `add_sample`, incremental Cholesky loops | Cholesky uniqueness + induction on added points |
| C27 | `_mu`, `_sigma`, `_compute_alpha`, triangular solves | matrix algebra over Mathlib |
| C28 | `query`, `mu`, `sigma` | direct |
| C29 | `_sigma` | C27 + positive semidefiniteness |
| C30 | add_sample | forward substitution extends |
| C31 | compute under permutation | reindexing of inverse/determinant |
| C32 | `_inv_kernel_updated` flag, all ops | invariant over histories; negation for `load(false)` |
| C33 | `compute_log_lik` | det of triangular product, logs |
| C34 | `compute_kernel_grad_log_lik` | Jacobi formula and derivative of the inverse, proved for a differentiable kernel |
| C35 | `compute_mean_grad_log_lik` | quadratic form derivative |
| C36 | `compute_log_loo_cv` | Schur complement / partitioned inverse |
| C37 | `compute_kernel_grad_log_loo_cv` | derivative of inverse entries |
| C38 | four HP optimizers composed with Rprop | C15 + likelihood as objective |
| C39 | same | recompute lemma |
| C40 | GP save/load on the list of objects written (`Model/Gp`) and on a directory of files of either archive (`Model/GpFiles`) | state lemma composed with the C54/C55 round trips |
| C41 | `recompute` | direct from state model |
| C42 | kernels over ℝ | real analysis |
| C43 | kernels over ℝ | Schur product theorem, power series of exp; Matérn by mixture representation if time permits |
| C44 | kernel gradients | `HasDerivAt` |
| C45 | h_params get/set | exp/log |
| C46 | means | direct, `HasDerivAt` |
| C47–C49 | MultiGP over the GP model | componentwise refinement; concrete counter-examples for the two defects |
| C50–C51 | SparsifiedGP with arbitrary schedule | sublist + minimum under any order of critical sections |
| C52 | UCB, GP_UCB with IEEE special values | case analysis |
| C53 | EI | Gaussian integral identity |
| C54 | byte-level BinaryArchive over an abstract file system | encode/decode round-trip |
| C55 | TextArchive over an abstract number formatter | splitting/joining round-trip |
| C56 | tools | direct |
| C57–C58 | pareto.hpp | Level A / finite values |
| C59–C60, C70 | CBOptimizer with its split observation lists | loop invariants; concrete counter-examples |
| C61 | GPParego on top of the GP model, as a machine over all calls | invariant: the GP inside is reachable with the scalarised data |
| C62, C71 | IMGPO: tree, passes, main loop, `optimize`, histories of calls | invariant through steps (i)-(v): aligned arrays, correct cells, tiling, chosen leaves still leaves; undefined behaviour is a parameter of the postcondition, so one proof gives both the tiling and definedness |
| C63 | ECI | C53 + Gaussian cdf |
| C64 | kernels after `set_h_params` | direct against the documented formulas |
| C65 | GP data view over all call histories | tracking invariant `Tracks` |
| C66–C67 | MultiGP save/load on the list of objects written (`Model/MultiGp`) and on a directory with sub-directories (`Model/MultiGpFiles`); hyper-parameter optimization | componentwise refinement; distinct file names, composed with the C54/C55 round trips |
| C68 | EI as atomic actions of several threads | invariant over all interleavings; concrete bad interleaving |
| C69 | sequence of file writes cut at any point | induction on the writes; concrete crash points |
| C72–C75 | `BoMulti`, EHVI and NSBO (loops, model fitting, Pareto sets, parallel maximum); `ehvi2d` (see C88) and Sferes are oracles | invariant over histories; per-iteration choice by induction on the loop; concrete witnesses for the stale front and the zero vector |
| C76 | the loop of `CBOptimizer` with the trace of consulted criteria | induction on the loop |
| C77–C84 | `SPGP` (experimental/model/spgp.hpp): every member, all calls, the likelihood and its gradient term by term | matrix algebra (Woodbury, matrix determinant lemma), derivative along any path of hyper-parameters, invariant over histories |
| C85–C87 | `hv/hypervol.c` (filter, slabs, recursion over objectives, in-place swaps) and `stat::HyperVolume` | loop invariants; Lebesgue measure of unions of boxes cut into slabs, induction on the number of objectives |
| C88–C89 | `ehvi2d` with its two nested loops and incremental correction, `acqui::Ehvi` | gained area as a sum over grid cells (Abel summation, telescoping indicators), Gaussian integrals per cell, induction on the loops; Lipschitz bounds for the rounded constants |
| C102 | `BOptimizer` with the SparsifiedGP model of C50–C51 | relation "GP reachable by calls, up to date, holds a sublist of `d` of the right size" kept by every operation |
| C103 | GP predictions of functions of bounded kernel norm (`Spec/Rkhs`, `Lemmas/Rkhs`, `Props/Confidence`) | variational characterisation of the posterior variance, Cauchy-Schwarz for the kernel's semi-inner product, on top of C27 (predictions are the posterior mean and variance); the repeated-point bound takes the mean of the n copies as competitor |
| C104 | `BOptimizer` + `UCB` + `GridSearch` + GP (`Spec/Regret`, `Lemmas/BoHonest`, `Props/Regret`) | at each decision: UCB choice (C93) and error bars (C103); pigeonhole over the grid gives a point decided upon n+1 times; its reported variance is bounded by C103; the first run never fails (invariant: honest data, unchanged functors, shapes) |
| C105 | `BOptimizer` + `MultiGP` / `SparsifiedGP` (`Spec/BoSafe`, `Lemmas/BoSafe`, `Props/BoSafe`) | the proof of C91 made generic in the model (a relation between model and data, a property the model always has, calls that succeed on well-shaped data); instances from the tracking lemmas of C47-C51; thinning succeeds whatever the distances and leaves at least one point |
| C106 | `stat::ParetoFront`, `stat::ParetoBenchmark` (`Model/ParetoStat`, `Spec/ParetoStat`, `Lemmas/MuStat`, `Props/ParetoStat`) | invariant on the logs (C92) generic in the model, the same for `Ehvi`/`Nsbo`; C57 for the front; a directory of files written as a whole, last write wins |
| C107 | `stop::MaxPredictedValue` with GP and `GridSearch` (`Model/StopGp`, `Props/StopGp`) | C08 for which criterion ended the run, C18 for the grid maximum, C90 for the posterior, C103 for the objective |
| C108 | passes of `IMGPO::optimize` (`Model/Imgpo`, `Spec/Imgpo2`, `Props/Imgpo2`) | the last selected leaf is a best one (steps (i)-(ii)), is never dropped (step (iii)) and is expanded unless a new observation reaches it (steps (iv)-(v)); a leaf of level h weighs 3^(999-h), splitting keeps the total weight, so there are at most 3^999 leaves |
| C109 | runs of `BOptimizer` with UCB on sets of points (`Spec/RegretCover`, `Lemmas/BoCover`, `Lemmas/KernelCover`, `Props/RegretCover`) | pigeonhole: some cell is evaluated more than n times; at its last evaluation the variance is bounded by the averaging predictor on the n earlier points of the cell (`C103_near_observed_points`), and UCB's optimism bounds the loss by the variance |
| C110 | pairs of runs of `BOptimizer` (`Spec/BoShift`, `Lemmas/BoTwin`, `Lemmas/BoShift`, `Props/BoShift`) | simulation of the two runs with the invariant "same points, shifted observations, each model has learnt its data"; with `mean::Data` the residuals and so the weights of the two GPs are equal; `GridSearch` by an invariant relating its two folds |
| C111 | the `Best*` statistics in `Model/Bo` (`Spec/BoBestLog`, `Lemmas/BoLog`, `Props/BoBestLog`) | the loop invariant of C10_logs, generalised to any statistic whose rows are a function of the evaluations before and during the run; `std::max_element` gives the earliest maximum |
| C112 | `Model/EhviGp` joins `Model/Multi`, `Model/Ehvi`, `Model/Gp`, `Model/Optim` (`Spec/EhviGp`, `Props/EhviGp`, `Props/EhviGpRun`) | fresh GPs given all data report the posterior (C27/C28), the front carries the whole dominated volume, `ehvi2d` is the integral (C88), grid search maximises exactly (C18); the run: every step of an iteration is shown to succeed on data of the right shape |
| C113 | `Model/CBo` (`Spec/CBoBlind`, `Props/CBoBlind`) | simulation between two runs: states equal up to stored observations are preserved by every step, because the models are fed from the split lists that nobody refreshes |
| C114 | `Model/BoParego` (`Spec/BoParego`, `Props/BoParego`) | invariant between `GPParego` and the data (the GP was fitted to the scalarised data with the last weights), lifted to histories with `LawfulRel` and to absence of undefined behaviour with `SafeModel`; the choice by the grid-search optimum of C18 |
| C115 | `Model/Rng` (`Spec/Rng`, `Props/Rng`, `Props/RngSeq`) | parity invariant over histories: a Gaussian number is kept exactly after an odd number of draws since the last reset; induction over the draws for the numbers themselves |
| C116 | `Model/Rng` (`Spec/Rng`, `Props/Rng`) | invariant over schedules of read and write-back steps |
| C117 | `Model/Gp`, `Model/Kernel` (`Spec/GpInvariance`, `Props/GpInvariance`) | both fits equal the textbook posterior (C26), whose matrices are the same up to relabelling |
| C118 | `Model/Gp` (`Spec/GpInvariance`, `Props/GpInvariance`) | both fits equal the textbook posterior, linear in the residuals; the Data mean is linear in the observations |
| C119 | `Model/Bo`, `Model/BoGp` (`Spec/BoThrow`, `Props/BoThrow`, `Props/BoThrowMore`) | case analysis of every statement that can throw; with C91, C105, C114 for the absence of undefined behaviour |
| C120 | `Model/RegFns`, `Model/RegFns2` (`Spec/RegFns`, `Props/RegFns`, `Props/RegFns2`) | sums of non-negative terms with their zeros; Cauchy–Schwarz for the arm; the quadratic equation of the piston; derivatives along a motion against an energy written from the velocities of the rods; a Taylor bound of the cosine and 20 digits of π for Schwefel; current balance for the circuit |
| C121 | `Model/Multi` with `Model/Gp` (`Spec/NsboGp`, `Props/NsboGp`, `Props/NsboGpRun`) | fresh GPs given the same inputs report the same posterior variance, so among vectors (s, …, s) non-dominated means largest; the run: every step of an iteration is shown to succeed |
| C101 | `BOptimizer` with the MultiGP model of C47–C49 | relation "MultiGP reachable by calls, kernel and weights up to date, holds `d`" kept by every operation; concrete run for `mean::Data` |
| C100 | `UCB_IMGPO`, `GP_UCB` with IEEE special values | Gaussian tail `Q(c) ≤ exp(-c²/2)/2` by a shift of the integral, `Σ 1/M² = π²/6` |
| C98–C99 | the optimizers of C16, C17 on real vectors (`Spec/Ascent`) | a run is an initial segment of a real trajectory; projection inequality per coordinate, telescoping; closed form of the moments |
| C97 | `_make_res_dir`, `tools::date/hostname/getpid`, `_create_log_file`, streams with positions, file system | decoding the name from the right; invariant over all interleavings: position = length of what was printed; collision witness |
| C95–C96 | the GP of C26–C41, all calls | functors unchanged by the linear algebra, induction over the calls; `compute(.., false)` keeps factor and weights; witness with one point |
| C94 | the benchmark functions of `src/benchmarks/limbo/testfunctions.hpp` over exact reals (without Hartmann), `accuracy` | algebraic factorisations (Goldstein–Price in `x0+x1` and `2x0-3x1`), `cos ≥ -1`, a three-case completion of squares for the camel function; fold over the listed solutions |
| C93 | acquisition objects inside the optimizer loop, `GridSearch` inside | induction over events (`TraceStep`): each acquisition event is followed by the point the inner optimizer returned; composed with C90, C18, C52, C53 |
| C92 | the GP statistics as functors on the optimizer state with a GP | general lemma: a log is the concatenation of what its statistic wrote in states described by the trace (`statPoints`), composed with C90 and C12 |
| C90–C91 | `BOptimizer` (C01–C10) with its model operations instantiated by the GP (C27–C39, C65) and the five hyper-parameter functors | relation "GP reachable by calls, up to date, holds `d`" kept by every operation; the same loop invariants as C06 for a relation; a second postcondition logic without undefined behaviour |

### Notes on the larger models

* **GP** (`Model/Gp`, exact reals): the state has every member of the class (dynamic matrices are sizes plus an entry function); freshly
  allocated memory holds an arbitrary `junk`; failed assertions are `none`. `GpReach E A st` = `st` is reachable by API calls, `A` is what a
  user knows (data, which caches are fresh). Kernels and means are parameters with laws (`LawfulEnv`), proved for the library's own classes.
* **Gradients/LOO** (`Lemmas/MatDeriv`, `Loo`): derivative of the inverse and determinant; partitioned inverse.
* **HP optimization** (`Model/HpOpt`): the four optimizers with Rprop on the GP model.
* **MultiGP** (`Model/MultiGp`): a list of GP models plus the outer mean. **SparsifiedGP**: removal under every schedule of the parallel loop.
* **Acquisition** (`Model/Acqui`): any model offering `query`, `mu`, `samples`; `erfc` is its integral; `log`, `sqrt` with NaN for GP-UCB.
* **SPGP** (`Model/Spgp`, exact reals): the textbook process is `Spec/Spgp`. A failed size check or an unset member is `ub`, a logarithm of zero `inf`.
  `mean_function()` (mutable access), `max_observation()` and `test_likelihood` are not modelled; the non-const overload of `_to_matrix`
  (which would recurse without end) is never called.
* **Archives** (`Model/Archive`): files are byte (character) lists; short reads leave old memory content in place.

## 5. Disagreements found between code and expected property

Each is a theorem unless marked (text).

* C03: an aggregator that returns NaN can hide the best observation (`C03_best_with_nan_aggregator`).
* C23: at exactly 0, `fun_tolerance` enables and `xrel_tolerance` disables its criterion, against their texts (`C23_tolerance_at_zero`); a
  bounded run in dimension 0 is undefined (`C23_dimension_zero_ub`).
* C05: `optimize(reset=false)` with no iteration done so far runs the initialisation again.
* C14: in binary64 a draw just below 1 can be rounded to the upper edge of its interval, which then has no point (`C14_float_upper_edge`).
* C12, C19: in binary64 the grid loses or exceeds its last value for some bin numbers.
* C32/C40: `GP::load(recompute=false)` leaves the cached inverse stale.
* C33: `compute_log_lik` with several outputs counts the determinant term once.
* C38: optimising the parameters of a mean without parameters (`Data`, `NullFunction`) fails an assertion (`C38_mean_without_parameters_fails`).
* C22: bounds and constraints of a re-used NLopt object persist (`C22_bounds_persist`), another dimension silently does nothing
  (`C22_other_dimension`), constraints set before the first run are ignored (`C22_early_constraints_ignored`).
* C24/C20: with NaN or ties `par::max` depends on the schedule.
* C48, C49: `MultiGP::add_sample` with a `Data` mean; `recompute(true, false)` stale.
* C50, C51: `max_points` too small is undefined; overflowing distances keep too many points; ties depend on the schedule.
* C52: GP-UCB is NaN for every point at iteration 0, the first iteration of the optimizer.
* C53: EI caches its best value by the number of samples; it is stale if the model changes otherwise.
* C54/C55: empty lists refused, missing binary matrix silently empty, short text lines accepted, text not exact.
* C56: the `PARAM_ARRAY` argument counter is right only up to 62 values.
* C57: the two-objective Pareto front keeps dominated points if there are ties (`C57_sort_2objs_wrong_with_ties`). C58: dominance is cyclic
  with NaN (`C58_nan_cycle`).
* C59/C60: `CBOptimizer` feeds its models with stale observations, returns the wrong best sample, and is undefined without constraints or
  without initial data.
* C62/C71: a resumed IMGPO run (`reset = false`) adds a second root and stores the old observation of the centre; a value evaluated in step (ii) is not stored in the cell, which keeps its estimate; after a failed evaluation the arrays of a level have different sizes and a resumed run reads out of bounds; the budget can be exceeded. Only in text: level 1000 and beyond do not exist (undefined behaviour after 1000 passes that each deepen the tree), the look-ahead of step (iii) only follows the left cell, the lower bound uses the first component of observations whatever `afun` is, and the acquisition function is called without its last argument, so the class does not compile with the acquisition functions of the library.
* C61: ParEGO gives NaN for an all-zero random vector, and after `load` no sample can be added.
* C68: EI called by several threads can return a value computed from uninitialised memory.
* C69: an interrupted save can mix two versions without any error.
* C72/C73: after a run EHVI's `pareto_data` and the models (also NSBO's) lack the last evaluation (`C72_stale_after_ehvi`), though a comment
  says they are updated "at the end of the algo". An observation longer than the first one is undefined.
* C74: if no expected improvement exceeds -FLT_MAX (e.g. all NaN) EHVI evaluates the objective at the 1-vector `[0]` (`C74_zero_vector`).
* C75: without a sample after initialisation EHVI and NSBO are undefined, even with a budget of 0; NSBO without Sferes or with one objective
  is undefined in its first iteration.
* C78/C79: `(n - _m) / 2` in the SPGP likelihood is an integer division: for odd `n - m` the value is half the log noise too large and the
  gradient does not belong to it (`C79_spgp_gradient_odd`).
* C81: the initial pseudo-inputs are written row by row but read column by column (`C81_spgp_start_not_samples`).
* C82: SPGP works for one output only; `add_sample` on an empty object takes `log(0)`; so do constant coordinates and zero residuals.
* C83: `SPGP::sigma(v)` passes a column where a row is needed: undefined unless the inputs have one coordinate; an object constructed from data
  cannot be queried before `compute`.
* C84: `SPGP::optimize_hyperparams()` leaves the factors of the old fit in place (`C84_spgp_optimize_wrong_sign`).
* C86: `CalculateHypervolume` with one objective gives the square of the best value (`C86_one_objective`); points below the reference point spoil
  the result (`C86_below_reference`). `ReduceNondominatedSet` skips the point it just moved, which costs a pass but no correctness.
* C88: a point below the reference makes `ehvi2d` too large (`C88_below_reference`).
* C89: `acqui::Ehvi` passes `sigma(v)`, a variance, where `ehvi2d` expects a standard deviation (`C89_not_expected_improvement`).
* C94: the third listed solution of `BraninNormalized` and both of `SixHumpCamel` are rounded: `accuracy` is zero at points that are not
  optimal and positive at better ones (`C94_branin_third_not_optimal`, `C94_six_hump_camel_not_optimal`); the error is bounded.
* C52/C93: `GP_UCB` is NaN in the first iteration (`log 0`); with `GridSearch` the point evaluated is then uninitialised memory
  (`C93_gp_ucb_grid_search_undefined`, `C93_gp_ucb_grid_search_first_iteration`).
* C87: the default reference of `stat::HyperVolume` has two values: three objectives are undefined (`C87_too_many_objectives`).
* (text) `SPGP::recompute(update_obs_mean)` ignores its argument; `pred_kernel_l`, `pred_kernel_sigma_sq` and `sig` have no effect on any prediction
  after data were given.
* C95: a default-constructed `GP()` loses hyper-parameters set before the first data (`C95_default_constructor_forgets`).
* C102: with `SparsifiedGP` the newest evaluation may be removed at once, so that an iteration changes nothing in the model (`C102_newest_may_be_ignored`).
* C105: `BOptimizer` builds `model_t(dim_in, dim_out)` when it starts without data; a `MultiGP` then asserts that observations have `dim_out()` values, while a `GP` takes their number from the first observation. An objective with a wrong `dim_out()` works with a `GP` and is undefined with a `MultiGP` (proved: `C105_multi_wrong_dim_out`).
* C106: the files of `stat::ParetoFront` and `stat::ParetoBenchmark` are numbered by `current_iteration()`, which restarts at 0 in every `optimize`: a run that continues an earlier one overwrites its files (proved: `C106_second_run_overwrites`). `ParetoBenchmark` is the only statistic that does not test `stats_enabled()`; with statistics disabled `res_dir()` is empty, so it writes to the root directory `/`.
* C107: `stop::MaxPredictedValue` compares the best observation with `ratio` times the highest prediction; for `ratio < 1` (the default is 0.9) and negative values this threshold lies above the prediction, so the criterion practically never ends a run on an objective with negative values (proved: `C107_never_stops_below_zero`).
* C108: IMGPO's tree has a fixed number of 1000 levels and nothing checks it; a run that is not stopped always ends by writing past the last level (proved: `C108_unstopped_run_is_undefined`). A pass may make no evaluation at all, so with `MaxIterations` the number of passes is not bounded by the number of iterations.
* C13: the comment of `RandomSamplingGrid` counts `bins^dim` grid points; the code draws from `(bins + 1)^dim`, proved.
* C115: `RandomGenerator::seed` does not reset the distribution, so a Gaussian generator seeded after an odd number of draws first returns a left-over number.
* C120: `Hartmann6` of `benchmarks/regression/test_functions.hpp` returns minus the function of the page its comment cites (the sum is not negated; `C120_hartmann6` shows it positive everywhere). It is the function to be maximized, as in `benchmarks/limbo`; for a regression benchmark only the sign of the data changes.
* C116: `RandomGenerator` is documented as mutex-protected and has no mutex.
* C113: without a statistic or criterion that calls `best_observation`/`best_sample`, `CBOptimizer` never uses the results of its evaluations: the points it evaluates are a function of the initial observations alone.
* C110: the search is invariant under adding a constant to the objective only with `mean::Data`; with a fixed prior mean the first decision can change (`C110_needs_data_mean`), and `MaxPredictedValue` compares with a multiple of the value, so it is not invariant either.
* C101: after `optimize` with a `MultiGP` whose mean is `mean::Data`, the mean predictions are not the posterior given the stored data (`C101_data_mean_wrong`): the consequence of C48 for a run of the optimizer.
* C100: `UCB_IMGPO` is NaN at its first evaluation for `nu > π²/12 ≈ 0.82` (`C100_ucb_imgpo_nan`).
* (text) IMGPO computes the bounds of the nodes it skips with a hard-coded `0.05` (imgpo.hpp:283, 322) while the acquisition object uses `Params::acqui_ucb_imgpo::nu()`,
  and it resets `M2 = M` (line 190) so that several evaluations share one `M`: the union bound of C100 then does not cover them.
* C97: the result directory has a resolution of one second and no counter: two optimizers of one process constructed within a second write to the same files, the second
  empties the log of the first and the two streams overwrite each other (`C97_same_directory_erases` and the example after it). Host names of 50 or more characters fail an `assert` or,
  with `NDEBUG`, may leave the buffer unterminated (`C97_long_host_name`).
* C96: `GP::compute(.., false)` leaves `L` and `alpha` stale without any error (`C96_old_predictions`, `C96_stale_prediction`).
* (text) `stat::GPLikelihood` calls a member function that does not exist; a reset run writes the header of a stat file again.

## 6. Testing the theorems against wrong programs

`seeded/LOG.jsonl` records edits of the model made in a scratch copy and the theorems that failed. Each record was obtained from committed
sources (field `base`) after checking that the unedited copy builds; an early harness copied the live working tree, so all of its records
were re-run this way (one, key `h3`, had been a false kill at the time). In most records the build stops in a helper lemma before the property
theorem is reached; these carry a `note`, because alone they do not show that the *property* rules the bug out.
