import Verif.Model.Bo

/-! Model of `experimental/bayes_opt/cboptimizer.hpp`: Bayesian optimization with a second model for constraints.

As in `Verif/Model/Bo.lean` every template parameter is a parameter of the model.  New here:

* the member `_obs` (the observations split into an objective and a constraint list) is `mutable` and is overwritten by the `const` functions
  `best_observation` and `best_sample`.  Stopping criteria and statistics receive the optimizer and may call these functions, so a
  criterion returns its answer *and* whether it called one of them; a statistic returns only the latter.
* the log files of the statistics are not modelled here (see `Verif/Model/Bo.lean` for them); disabled statistics are `stats = []`.
* a failed `assert` is undefined behaviour. -/

namespace Limbo

/-- State of a `CBOptimizer` (`cboptimizer.hpp:233-238` on top of `bo_base.hpp:285-292`). -/
structure CBoState (α M C : Type) where
  base : BoState α M
  /-- `_constraint_model` -/
  cmodel : C
  /-- `_nb_constraints` (uninitialised before the first `optimize`) -/
  nb : Nat
  /-- `_dim_out` (uninitialised before the first `optimize`) -/
  dimOut : Nat
  /-- `_obs`: empty in a new object, two lists after a split -/
  obs : List (List (List α))

variable {α M C : Type}

/-- A stopping criterion: its answer, and whether it calls `best_observation`/`best_sample`; `none` = undefined behaviour. -/
abbrev CCriterion (α M C : Type) := CBoState α M C → (List α → α) → Option (Bool × Bool)

/-- A statistic: whether it calls `best_observation`/`best_sample`; `none` = undefined behaviour. -/
abbrev CStat (α M C : Type) := CBoState α M C → (List α → α) → Option Bool

/-- Template parameters of `CBOptimizer`. -/
structure CBoParams (α M C : Type) where
  bounded : Bool
  hpPeriod : Int
  ops : ModelOps α M
  cops : ModelOps α C
  /-- `_model.dim_out()` -/
  dimOutOf : M → Nat
  initPts : BoState α M → Nat → Option (List (List α))
  acqui : M → C → Int → (List α → α) → ObjFn α
  acquiOpt : CBoState α M C → ObjFn α → List α → Bool → OptRes α
  startPt : CBoState α M C → Nat → List α
  stop : List (CCriterion α M C)
  stats : List (CStat α M C)

section
variable [Scalar α]

/-- `_split_observations` (`cboptimizer.hpp:251-271`): `_obs[0]` gets the first `dimOut` entries of every observation; if there are
constraints, `_obs[1]` gets the remaining entries.  `none` = the assertion on the size fails. -/
def cbSplit (dimOut nb : Nat) (observations : List (List α)) : Option (List (List (List α))) :=
  if observations.all (fun v => v.length == dimOut + nb) then
    some [observations.map (fun v => v.take dimOut), if 0 < nb then observations.map (fun v => v.drop dimOut) else []]
  else none

/-- Eigen's `prod()` of a vector, left to right (Eigen does not specify the order; 1 for an empty vector). -/
def cbProd : List α → α
  | [] => lit 1
  | x :: xs => xs.foldl (fun a b => a * b) x

/-- `_feasible_observations` (`cboptimizer.hpp:240-249`), given `_obs[0]` and `_obs[1]`; `none` = `_obs[1]` is read past its end. -/
def cbFeasible : List (List α) → List (List α) → Option (List (List α))
  | [], _ => some []
  | _ :: _, [] => none
  | o :: os, c :: cs =>
    match cbFeasible os cs with
    | none => none
    | some r => if lt (lit 0) (cbProd c) then some (o :: r) else some r

/-- The common beginning of `best_observation` and `best_sample` (`cboptimizer.hpp:201-206` and `218-223`): it writes to
`_dim_out` and `_obs`. -/
def cbLook (P : CBoParams α M C) (st : CBoState α M C) : Option (CBoState α M C) :=
  let d := P.dimOutOf st.base.model
  match cbSplit d st.nb st.base.observations with
  | some [o, c] =>
    match cbFeasible o c with
    | none => none
    | some [] => some { st with dimOut := d, obs := [o, c] }
    | some (x :: xs) => some { st with dimOut := d, obs := [x :: xs, c] }
  | _ => none

/-- `best_observation(afun)` (`cboptimizer.hpp:198-212`). -/
def cbBestObservation (P : CBoParams α M C) (afun : List α → α) (st : CBoState α M C) : Option (List α) :=
  match cbLook P st with
  | none => none
  | some st =>
    match st.obs[0]? with
    | none => none
    | some o => o[maxElement (o.map afun)]?

/-- `best_sample(afun)` (`cboptimizer.hpp:215-229`). -/
def cbBestSample (P : CBoParams α M C) (afun : List α → α) (st : CBoState α M C) : Option (List α) :=
  match cbLook P st with
  | none => none
  | some st =>
    match st.obs[0]? with
    | none => none
    | some o => st.base.samples[maxElement (o.map afun)]?

/-- Effect of a criterion or statistic on the optimizer: nothing, or what `best_observation` writes.  (Calling it several times, or
calling `best_sample`, writes the same.) -/
def cbTouch (P : CBoParams α M C) (looked : Bool) (st : CBoState α M C) : Option (CBoState α M C) :=
  if looked then cbLook P st else some st

/-- `_stop` (`bo_base.hpp:262-267`, `stop/chain_criteria.hpp:69-73`) on a `CBOptimizer`. -/
def cbChain (P : CBoParams α M C) (afun : List α → α) :
    List (CCriterion α M C) → Nat → Bool → CBoState α M C → Option (Bool × CBoState α M C)
  | [], _, state, st => some (state, st)
  | c :: cs, k, state, st =>
    if state then cbChain P afun cs (k + 1) true st
    else
      match c st afun with
      | none => none
      | some (b, looked) =>
        match cbTouch P looked st with
        | none => none
        | some st => cbChain P afun cs (k + 1) b { st with base := st.base.push (.asked k b) }

/-- The statistics of one `_update_stats` (`bo_base.hpp:269-274`), in order. -/
def cbStats (P : CBoParams α M C) (afun : List α → α) : List (CStat α M C) → CBoState α M C → Option (CBoState α M C)
  | [], st => some st
  | s :: ss, st =>
    match s st afun with
    | none => none
    | some looked =>
      match cbTouch P looked st with
      | none => none
      | some st => cbStats P afun ss st

/-- `_update_stats`. -/
def cbUpdateStats (P : CBoParams α M C) (afun : List α → α) (st : CBoState α M C) : Res (CBoState α M C) :=
  match cbStats P afun P.stats { st with base := st.base.push (.stat st.base.model) } with
  | none => .ub
  | some st => .ok st

/-- Run code of `BoBase` inside the `CBOptimizer`. -/
def cbBase (st : CBoState α M C) (r : Res (BoState α M)) : Res (CBoState α M C) :=
  r.bind (fun b => .ok { st with base := b }) (fun b => { st with base := b })

/-- Run an operation of the constraint model. -/
def cbCmodel (st : CBoState α M C) (r : Res C) : Res (CBoState α M C) :=
  r.bind (fun c => .ok { st with cmodel := c }) (fun c => { st with cmodel := c })

/-- `_init` (`bo_base.hpp:248-260`). -/
def cbInit (P : CBoParams α M C) (f : StateFun α M) (reset : Bool) (st : BoState α M) : Res (BoState α M) :=
  let st := { st with currentIteration := 0 }
  let st := if reset then { st with totalIterations := 0, samples := [], observations := [] } else st
  if st.totalIterations = 0 then
    match P.initPts st f.dimIn with
    | some pts => evalAll f pts st
    | none => .ub
  else .ok st

/-- The models before the loop (`cboptimizer.hpp:156-166`). -/
def cbModelInit (P : CBoParams α M C) (f : StateFun α M) (st : CBoState α M C) : Res (CBoState α M C) :=
  if st.base.observations.isEmpty then
    let st := { st with base := { st.base with model := P.ops.fresh f.dimIn f.dimOut } }
    if 0 < st.nb then .ok { st with cmodel := P.cops.fresh f.dimIn st.nb } else .ok st
  else
    match cbSplit st.dimOut st.nb st.base.observations with
    | some [o, c] =>
      let st := { st with obs := [o, c] }
      (cbBase st (withModel st.base (P.ops.compute st.base.samples o st.base.model))).andThen fun st =>
      if 0 < st.nb then cbCmodel st (P.cops.compute st.base.samples c st.cmodel) else .ok st
    | _ => .ub

/-- `_model.add_sample(_samples.back(), _obs[0].back()); if (_nb_constraints > 0) _constraint_model.add_sample(_samples.back(), _obs[1].back())`
(`cboptimizer.hpp:181-183`). -/
def cbModelAdd (P : CBoParams α M C) (st : CBoState α M C) : Res (CBoState α M C) :=
  match st.base.samples.getLast?, (st.obs[0]?).bind List.getLast? with
  | some s, some v =>
    (cbBase st (withModel st.base (P.ops.addSample s v st.base.model))).andThen fun st =>
    if 0 < st.nb then
      match (st.obs[1]?).bind List.getLast? with
      | some w => cbCmodel st (P.cops.addSample s w st.cmodel)
      | none => .ub
    else .ok st
  | _, _ => .ub

/-- Hyper-parameters of both models (`cboptimizer.hpp:185-190`). -/
def cbHp (P : CBoParams α M C) (st : CBoState α M C) : Res (CBoState α M C) :=
  if 0 < P.hpPeriod ∧ (st.base.currentIteration + 1).tmod P.hpPeriod = 0 then
    let st := { st with base := st.base.push (.hp st.base.model) }
    (cbBase st (withModel st.base (P.ops.optHp st.base.model))).andThen fun st =>
    if 0 < st.nb then cbCmodel st (P.cops.optHp st.cmodel) else .ok st
  else .ok st

/-- The body of the `while` loop (`cboptimizer.hpp:171-193`). -/
def cbIteration (P : CBoParams α M C) (f : StateFun α M) (afun : List α → α) (st : CBoState α M C) : Res (CBoState α M C) :=
  let st := { st with base := st.base.push (.acqui st.base.model st.base.currentIteration) }
  let acqui := P.acqui st.base.model st.cmodel st.base.currentIteration afun
  match P.acquiOpt st (fun x g => acqui x g) (P.startPt st f.dimIn) P.bounded with
  | .ub => .ub
  | .threw => .throw .other st
  | .point x =>
    (cbBase st (evalAndAdd f x st.base)).andThen fun st =>
    (cbUpdateStats P afun st).andThen fun st =>
    (cbModelAdd P st).andThen fun st =>
    (cbHp P st).andThen fun st =>
    .ok { st with base := { st.base with currentIteration := st.base.currentIteration + 1, totalIterations := st.base.totalIterations + 1 } }

/-- The `while` loop (`cboptimizer.hpp:170-194`). -/
def cbLoop (P : CBoParams α M C) (f : StateFun α M) (afun : List α → α) : Nat → CBoState α M C → Res (CBoState α M C)
  | 0, _ => .diverge
  | fuel + 1, st =>
    match cbChain P afun P.stop 0 false st with
    | none => .ub
    | some (true, st) => .ok st
    | some (false, st) => (cbIteration P f afun st).andThen (cbLoop P f afun fuel)

/-- `CBOptimizer::optimize` (`cboptimizer.hpp:149-195`); `nb` is `StateFunction::nb_constraints()`. -/
def cbOptimize (P : CBoParams α M C) (f : StateFun α M) (nb : Nat) (afun : List α → α) (reset : Bool) (fuel : Nat) (st : CBoState α M C) :
    Res (CBoState α M C) :=
  let st := { st with nb := nb, dimOut := f.dimOut, base := st.base.push (.start reset) }
  (cbBase st (cbInit P f reset st.base)).andThen fun st =>
  (cbModelInit P f st).andThen fun st =>
  cbLoop P f afun fuel st

/-- A newly constructed `CBOptimizer`. -/
def newCBo (it : Int) (nb dimOut : Nat) (m : M) (c : C) : CBoState α M C :=
  { base := { samples := [], observations := [], currentIteration := it, totalIterations := 0, model := m, logs := [], trace := [] },
    cmodel := c, nb := nb, dimOut := dimOut, obs := [] }

/-! ## Call histories -/

/-- A call made by the user on the optimizer. -/
inductive CbOp (α M C : Type)
  | optimize (f : StateFun α M) (nb : Nat) (afun : List α → α) (reset : Bool) (fuel : Nat)
  | addNewSample (s v : List α)
  | evalAndAdd (f : StateFun α M) (x : List α)
  /-- `best_observation` or `best_sample` -/
  | best

/-- Effect of one call. -/
def cbRunOp (P : CBoParams α M C) : CbOp α M C → CBoState α M C → Res (CBoState α M C)
  | .optimize f nb afun reset fuel, st => cbOptimize P f nb afun reset fuel st
  | .addNewSample s v, st => cbBase st (Limbo.addNewSample s v (st.base.push (.given s v)))
  | .evalAndAdd f x, st => cbBase st (Limbo.evalAndAdd f x st.base)
  | .best, st => match cbLook P st with
    | none => .ub
    | some st => .ok st

/-- Effect of a sequence of calls; exceptions are caught by the user, who goes on using the object.  `none` = undefined behaviour
or a call that does not return. -/
def cbRunOps (P : CBoParams α M C) : List (CbOp α M C) → CBoState α M C → Option (CBoState α M C)
  | [], st => some st
  | op :: ops, st =>
    match cbRunOp P op st with
    | .ok st => cbRunOps P ops st
    | .throw _ st => cbRunOps P ops st
    | .ub => none
    | .diverge => none

end

end Limbo
