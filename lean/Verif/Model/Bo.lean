import Verif.Model.Init
import Verif.Model.Tools

/-! Model of `bayes_opt/bo_base.hpp`, `bayes_opt/boptimizer.hpp`, `stop/*.hpp` and the logging statistics of `stat/*.hpp`.

Everything the library leaves to a template parameter is a parameter of the model: objective, initialiser, surrogate model,
acquisition function, inner optimizer, stopping criteria, statistics.  Each of them may depend on everything that happened before (it is
given the state, which contains the chronological `trace`); a quantification over these functions therefore covers stateful
objectives and all random draws.

`trace` is a ghost component: nothing in the C++ program corresponds to it and no modelled function branches on it. -/

namespace Limbo

/-- Exceptions: `EvaluationError` (`bo_base.hpp:106-107`) or anything thrown by user code. -/
inductive Exn
  | evaluationError
  | other
  deriving DecidableEq

/-- Outcome of running a piece of code on a state: normal end, exception (with the state it leaves behind), undefined behaviour,
or loop fuel exhausted. -/
inductive Res (σ : Type)
  | ok (s : σ)
  | throw (e : Exn) (s : σ)
  | ub
  | diverge

/-- Sequencing. -/
def Res.bind {σ τ : Type} (r : Res σ) (f : σ → Res τ) (g : σ → τ) : Res τ :=
  match r with
  | .ok s => f s
  | .throw e s => .throw e (g s)
  | .ub => .ub
  | .diverge => .diverge

/-- Sequencing of two pieces of code on the same state. -/
def Res.andThen {σ : Type} (r : Res σ) (f : σ → Res σ) : Res σ := r.bind f id

/-- What a call of the objective did. -/
inductive CallRes (α : Type)
  | ret (v : List α)
  | threw

/-- Observable events. -/
inductive Event (α M : Type)
  /-- `optimize(..., reset)` is entered -/
  | start (reset : Bool)
  /-- the objective is called on `x` -/
  | call (x : List α) (r : CallRes α)
  /-- the user calls `add_new_sample(s, v)` -/
  | given (s v : List α)
  /-- stopping criterion number `k` is consulted -/
  | asked (k : Nat) (answer : Bool)
  /-- an acquisition function is built on model `m` with iteration number `it` and optimized -/
  | acqui (m : M) (it : Int)
  /-- the statistics are refreshed while the model is `m` -/
  | stat (m : M)
  /-- `optimize_hyperparams` is called on `m` -/
  | hp (m : M)

/-- One line of a log file. -/
inductive LogLine (α : Type)
  | header
  | row (tag : Int) (v : List α)
  deriving DecidableEq

/-- State of a `BOptimizer` (`bo_base.hpp:285-292`, `boptimizer.hpp:194-195`) and of its log files (one per statistic).
`int` counters are unbounded integers (overflow after 2^31 iterations is not modelled). -/
structure BoState (α M : Type) where
  samples : List (List α)
  observations : List (List α)
  currentIteration : Int
  totalIterations : Int
  model : M
  logs : List (List (LogLine α))
  trace : List (Event α M)

variable {α M : Type}

/-- Record an event. -/
def BoState.push (st : BoState α M) (e : Event α M) : BoState α M := { st with trace := st.trace ++ [e] }

/-- The objective functor (`StateFunction`): `dim_in`, `dim_out` and the call operator. -/
structure StateFun (α M : Type) where
  dimIn : Nat
  dimOut : Nat
  call : List (Event α M) → List α → CallRes α

/-- The operations `BOptimizer` uses on its model. -/
structure ModelOps (α M : Type) where
  fresh : Nat → Nat → M
  compute : List (List α) → List (List α) → M → Res M
  addSample : List α → List α → M → Res M
  optHp : M → Res M

/-- Result of an inner optimizer. -/
inductive OptRes (α : Type)
  | point (x : List α)
  | threw
  | ub

/-- An optimizer of `limbo::opt` as inner optimizer. -/
def Optz.toRes (o : Optz α) (f : ObjFn α) (x : List α) (bounded : Bool) : OptRes α :=
  match o f x bounded with
  | some y => .point y
  | none => .ub

/-- A stopping criterion functor `(bo, afun) ↦ bool`; `none` = undefined behaviour. -/
abbrev Criterion (α M : Type) := BoState α M → (List α → α) → Option Bool

/-- A statistic functor: the lines it appends to its log; `none` = undefined behaviour. -/
abbrev Stat (α M : Type) := BoState α M → (List α → α) → Option (List (LogLine α))

/-- Template parameters of `BOptimizer`. -/
structure BoParams (α M : Type) where
  bounded : Bool
  statsEnabled : Bool
  hpPeriod : Int
  ops : ModelOps α M
  /-- points evaluated by the initialiser, given the dimension; `none` = failed assertion -/
  initPts : BoState α M → Nat → Option (List (List α))
  acqui : M → Int → (List α → α) → ObjFn α
  acquiOpt : BoState α M → ObjFn α → List α → Bool → OptRes α
  /-- `tools::random_vector(dim_in, bounded)` -/
  startPt : BoState α M → Nat → List α
  stop : List (Criterion α M)
  stats : List (Stat α M)

section BoBase
variable [Scalar α]

/-- `add_new_sample` (`bo_base.hpp:232-238`). -/
def addNewSample (s v : List α) (st : BoState α M) : Res (BoState α M) :=
  if isNanOrInf v then .throw .evaluationError st
  else .ok { st with samples := st.samples ++ [s], observations := st.observations ++ [v] }

/-- `eval_and_add` (`bo_base.hpp:241-245`): the only place where the objective is called. -/
def evalAndAdd (f : StateFun α M) (x : List α) (st : BoState α M) : Res (BoState α M) :=
  let r := f.call st.trace x
  let st := st.push (.call x r)
  match r with
  | .threw => .throw .other st
  | .ret v => addNewSample x v st

/-- An initialiser: `eval_and_add` of its points in order (`init/*.hpp`, see `Verif/Model/Init.lean`). -/
def evalAll (f : StateFun α M) : List (List α) → BoState α M → Res (BoState α M)
  | [], st => .ok st
  | x :: xs, st => (evalAndAdd f x st).andThen (evalAll f xs)

/-- `_init` (`bo_base.hpp:248-260`). -/
def boInit (P : BoParams α M) (f : StateFun α M) (reset : Bool) (st : BoState α M) : Res (BoState α M) :=
  let st := { st with currentIteration := 0 }
  let st := if reset then { st with totalIterations := 0, samples := [], observations := [] } else st
  if st.totalIterations = 0 then
    match P.initPts st f.dimIn with
    | some pts => evalAll f pts st
    | none => .ub
  else .ok st

/-- `stop::ChainCriteria` folded over the criteria (`bo_base.hpp:262-267`, `stop/chain_criteria.hpp:69-73`):
`state || stop(bo, afun)`, i.e. once `state` is true the remaining criteria are not called.  `st` is the optimizer, which criteria
cannot modify; the result carries the consulted criteria. -/
def chainCriteria (st : BoState α M) (afun : List α → α) :
    List (Criterion α M) → Nat → Bool → List (Event α M) → Option (Bool × List (Event α M))
  | [], _, state, tr => some (state, tr)
  | c :: cs, k, state, tr =>
    if state then chainCriteria st afun cs (k + 1) true tr
    else
      match c st afun with
      | none => none
      | some b => chainCriteria st afun cs (k + 1) b (tr ++ [.asked k b])

/-- `_stop` (`bo_base.hpp:262-267`): `accumulate(_stopping_criteria, false, chain)`. -/
def boStop (P : BoParams α M) (afun : List α → α) (st : BoState α M) : Option (Bool × BoState α M) :=
  match chainCriteria st afun P.stop 0 false st.trace with
  | none => none
  | some (b, tr) => some (b, { st with trace := tr })

/-- Refresh every statistic, in order; statistic `k` appends to log `k`. -/
def refreshStats (st : BoState α M) (afun : List α → α) :
    List (Stat α M) → List (List (LogLine α)) → Option (List (List (LogLine α)))
  | [], logs => some logs
  | _ :: _, [] => none
  | s :: ss, l :: ls =>
    match s st afun, refreshStats st afun ss ls with
    | some new, some rest => some ((l ++ new) :: rest)
    | _, _ => none

/-- `_update_stats` (`bo_base.hpp:269-274`); every statistic of the library returns at once if statistics are disabled
(except `experimental::stat::ParetoBenchmark`, see `Model/ParetoStat`). -/
def updateStats (P : BoParams α M) (afun : List α → α) (st : BoState α M) : Res (BoState α M) :=
  let st := st.push (.stat st.model)
  if P.statsEnabled then
    match refreshStats st afun P.stats st.logs with
    | some logs => .ok { st with logs := logs }
    | none => .ub
  else .ok st

/-- Run a model operation inside the optimizer. -/
def withModel (st : BoState α M) (r : Res M) : Res (BoState α M) :=
  r.bind (fun m => .ok { st with model := m }) (fun m => { st with model := m })

/-- `_model.add_sample(_samples.back(), _observations.back())` (`boptimizer.hpp:161`); `back()` of an empty vector is undefined. -/
def boModelAdd (P : BoParams α M) (st : BoState α M) : Res (BoState α M) :=
  match st.samples.getLast?, st.observations.getLast? with
  | some s, some v => withModel st (P.ops.addSample s v st.model)
  | _, _ => .ub

/-- `if (hp_period > 0 && (current_iteration + 1) % hp_period == 0) optimize_hyperparams()` (`boptimizer.hpp:163-165`). -/
def boHp (P : BoParams α M) (st : BoState α M) : Res (BoState α M) :=
  if 0 < P.hpPeriod ∧ (st.currentIteration + 1).tmod P.hpPeriod = 0 then
    let st := st.push (.hp st.model)
    withModel st (P.ops.optHp st.model)
  else .ok st

/-- The body of the `while` loop (`boptimizer.hpp:151-168`). -/
def boIteration (P : BoParams α M) (f : StateFun α M) (afun : List α → α) (st : BoState α M) : Res (BoState α M) :=
  let st := st.push (.acqui st.model st.currentIteration)
  let acqui := P.acqui st.model st.currentIteration afun
  match P.acquiOpt st (fun x g => acqui x g) (P.startPt st f.dimIn) P.bounded with
  | .ub => .ub
  | .threw => .throw .other st
  | .point x =>
    (evalAndAdd f x st).andThen fun st =>
    (updateStats P afun st).andThen fun st =>
    (boModelAdd P st).andThen fun st =>
    (boHp P st).andThen fun st =>
    .ok { st with currentIteration := st.currentIteration + 1, totalIterations := st.totalIterations + 1 }

/-- The `while` loop (`boptimizer.hpp:150-169`). -/
def boLoop (P : BoParams α M) (f : StateFun α M) (afun : List α → α) : Nat → BoState α M → Res (BoState α M)
  | 0, _ => .diverge
  | fuel + 1, st =>
    match boStop P afun st with
    | none => .ub
    | some (true, st) => .ok st
    | some (false, st) => (boIteration P f afun st).andThen (boLoop P f afun fuel)

/-- `if (!observations.empty()) _model.compute(samples, observations); else _model = model_t(dim_in, dim_out)`
(`boptimizer.hpp:143-146`). -/
def boModelInit (P : BoParams α M) (f : StateFun α M) (st : BoState α M) : Res (BoState α M) :=
  if st.observations.isEmpty then .ok { st with model := P.ops.fresh f.dimIn f.dimOut }
  else withModel st (P.ops.compute st.samples st.observations st.model)

/-- `BOptimizer::optimize` (`boptimizer.hpp:138-170`). -/
def optimize (P : BoParams α M) (f : StateFun α M) (afun : List α → α) (reset : Bool) (fuel : Nat) (st : BoState α M) :
    Res (BoState α M) :=
  let st := st.push (.start reset)
  (boInit P f reset st).andThen fun st =>
  (boModelInit P f st).andThen fun st =>
  boLoop P f afun fuel st

/-! ## Best point -/

/-- `std::max_element` on `rewards`, as an index: `if (*largest < *it) largest = it`.  `i` is the next index, `b` the value at the
current best index `bi`. -/
def maxElementFrom (bi : Nat) (b : α) : Nat → List α → Nat
  | _, [] => bi
  | i, x :: xs => if lt b x then maxElementFrom i x (i + 1) xs else maxElementFrom bi b (i + 1) xs

/-- `std::distance(begin, std::max_element(begin, end))`; 0 (= `end`) on an empty range. -/
def maxElement : List α → Nat
  | [] => 0
  | x :: xs => maxElementFrom 0 x 1 xs

/-- `best_observation(afun)` (`boptimizer.hpp:173-180`); `none` = reading past the end. -/
def bestObservation (afun : List α → α) (st : BoState α M) : Option (List α) :=
  st.observations[maxElement (st.observations.map afun)]?

/-- `best_sample(afun)` (`boptimizer.hpp:183-190`). -/
def bestSample (afun : List α → α) (st : BoState α M) : Option (List α) :=
  st.samples[maxElement (st.observations.map afun)]?

/-! ## Stopping criteria -/

/-- `stop::MaxIterations` (`stop/max_iterations.hpp:64-72`). -/
def maxIterations (iterations : Int) : Criterion α M := fun st _ => some (decide (iterations ≤ st.currentIteration))

/-- `stop::MaxPredictedValue` (`stop/max_predicted_value.hpp:76-97`).  `mu` is `model().mu`, `opt` the optimizer used on the
model's mean, `start` the random starting point. -/
def maxPredictedValue (mu : M → List α → List α) (opt : BoState α M → Optz α) (start : BoState α M → List α) (ratio : α) :
    Criterion α M := fun st afun =>
  if st.observations.length = 0 then some false
  else
    match opt st (fun x _ => (afun (mu st.model x), none)) (start st) true with
    | none => none
    | some x =>
      let val := afun (mu st.model x)
      if st.observations.length = 0 then some false
      else
        match bestObservation afun st with
        | none => none
        | some b => if le (afun b) (ratio * val) then some false else some true

/-! ## Statistics -/

/-- Header, `-1` rows and last row, as written by `Samples`, `Observations` and `AggregatedObservations`
(`stat/samples.hpp:58-72`, `stat/observations.hpp:58-72`, `stat/aggregated_observations.hpp:60-74`).
`data` is the list of values the statistic prints.  The text formatting of numbers is not modelled. -/
def logAll (data : List (List α)) (total : Int) : List (LogLine α) :=
  match data.getLast? with
  | none => []
  | some last =>
    (if total = 0 then .header :: data.dropLast.map (.row (-1)) else []) ++ [.row total last]

/-- `stat::Samples` (`stat/samples.hpp:58-72`). -/
def statSamples : Stat α M := fun st _ => some (logAll st.samples st.totalIterations)

/-- `stat::Observations` (`stat/observations.hpp:58-72`). -/
def statObservations : Stat α M := fun st _ => some (logAll st.observations st.totalIterations)

/-- `stat::AggregatedObservations` (`stat/aggregated_observations.hpp:60-74`). -/
def statAggregated : Stat α M := fun st afun => some (logAll (st.observations.map fun v => [afun v]) st.totalIterations)

/-- The header-once, one-row-per-call pattern of the `Best*` statistics. -/
def logBest (total : Int) (v : Option (List α)) : Option (List (LogLine α)) :=
  match v with
  | none => none
  | some v => some ((if total = 0 then [.header] else []) ++ [.row total v])

/-- `stat::BestSamples` (`stat/best_samples.hpp:58-69`). -/
def statBestSamples : Stat α M := fun st afun =>
  if st.samples.isEmpty then some [] else logBest st.totalIterations (bestSample afun st)

/-- `stat::BestObservations` (`stat/best_observations.hpp:59-70`). -/
def statBestObservations : Stat α M := fun st afun =>
  if st.observations.isEmpty then some [] else logBest st.totalIterations (bestObservation afun st)

/-- `stat::BestAggregatedObservations` (`stat/best_aggregated_observations.hpp:60-71`). -/
def statBestAggregated : Stat α M := fun st afun =>
  if st.observations.isEmpty then some []
  else logBest st.totalIterations ((bestObservation afun st).map fun v => [afun v])

/-! ## Call histories -/

/-- A call made by the user on the optimizer. -/
inductive BoOp (α M : Type)
  | optimize (f : StateFun α M) (afun : List α → α) (reset : Bool) (fuel : Nat)
  | addNewSample (s v : List α)
  | evalAndAdd (f : StateFun α M) (x : List α)

/-- Effect of one call. -/
def runOp (P : BoParams α M) : BoOp α M → BoState α M → Res (BoState α M)
  | .optimize f afun reset fuel, st => Limbo.optimize P f afun reset fuel st
  | .addNewSample s v, st => Limbo.addNewSample s v (st.push (.given s v))
  | .evalAndAdd f x, st => Limbo.evalAndAdd f x st

/-- Effect of a sequence of calls; exceptions are caught by the user, who goes on using the object.  `none` = undefined behaviour
or a call that does not return. -/
def runOps (P : BoParams α M) : List (BoOp α M) → BoState α M → Option (BoState α M)
  | [], st => some st
  | op :: ops, st =>
    match runOp P op st with
    | .ok st => runOps P ops st
    | .throw _ st => runOps P ops st
    | .ub => none
    | .diverge => none

/-- A newly constructed `BOptimizer` (`bo_base.hpp:205`): `_total_iterations = 0`, empty data, default-constructed model `m`;
`_current_iteration` is uninitialised (any value `c`). -/
def newBo (P : BoParams α M) (c : Int) (m : M) : BoState α M :=
  { samples := [], observations := [], currentIteration := c, totalIterations := 0, model := m,
    logs := P.stats.map fun _ => [], trace := [] }

end BoBase

end Limbo
