import Verif.Model.Bo
import Verif.Model.Pareto
import Verif.Model.Search

/-!
Model of the multi-objective optimizers `experimental/bayes_opt/bo_multi.hpp`, `nsbo.hpp`, `ehvi.hpp` and of the acquisition function
`experimental/acqui/ehvi.hpp`.

The state is that of `BoBase` (`Model/Bo`) with the members of `BoMulti` in place of the surrogate model.  Parameters, besides those of
`BoBase`: the surrogate model, `pareto_set` (which may leave any of the results allowed by `ParetoSet`), the evolutionary algorithm of Sferes,
the formula `ehvi2d` of the EHVI library, the inner optimizer, the schedule of the parallel maximum and `rand()`.
-/

namespace Limbo

/-- `pareto_point_t`: point, objectives, standard deviations (`bo_multi.hpp:161`). -/
abbrev PPoint (α : Type) := List α × List α × List α

/-- The members of `BoMulti` (`bo_multi.hpp:216-218`). -/
structure MM (α M : Type) where
  models : List M
  paretoModel : List (PPoint α)
  paretoData : List (PPoint α)

/-- Template parameters and oracles of `BoMulti`, `Nsbo`, `Ehvi`. -/
structure MuParams (α M : Type) where
  /-- initialiser, stopping criteria and statistics of `BoBase` (its other fields are not used) -/
  bo : BoParams α (MM α M)
  ops : ModelOps α M
  /-- `model.mu(v)(0)` -/
  mu : M → List α → α
  /-- `model.sigma(v)` -/
  sigma : M → List α → α
  /-- NSGA-II of Sferes: the points of its front with their objectives, sorted; `none` when compiled without Sferes -/
  sferes : Option (BoState α (MM α M) → Nat → List (List α × List α))
  /-- `pareto::pareto_set<K>` -/
  pset : Nat → BoState α (MM α M) → List (PPoint α) → List (PPoint α)
  /-- `rand()` -/
  rand : BoState α (MM α M) → Nat
  /-- `inner_opt(f, x, true)` for Pareto point number `i` -/
  inner : BoState α (MM α M) → Nat → ObjFn α → List α → Bool → OptRes α
  /-- `ehvi2d(pop, r, mu, s)` -/
  ehvi2d : List (α × α) → α × α → α × α → α × α → α
  /-- `x_ref`, `y_ref` (`ehvi.hpp:61-64`) -/
  ref : α × α
  /-- schedule of `tools::par::max` for `n` iterations -/
  sched : BoState α (MM α M) → Nat → Sched

variable {α M : Type} [Scalar α]

/-- The inner loop of `_update_models` for one observation (`bo_multi.hpp:238-239`): `uni_obs[j].push_back(Constant(1, v[j]))`;
`none` = `uni_obs[j]` out of range. -/
def pushRow : List (List (List α)) → List α → Option (List (List (List α)))
  | cols, [] => some cols
  | [], _ :: _ => none
  | c :: cols, y :: ys => (pushRow cols ys).map ((c ++ [[y]]) :: ·)

/-- The outer loop of `_update_models` (`bo_multi.hpp:237-239`). -/
def pushRows : List (List α) → List (List (List α)) → Option (List (List (List α)))
  | [], cols => some cols
  | v :: vs, cols => (pushRow cols v).bind (pushRows vs)

/-- `for i: _models[i].compute(_samples, uni_obs[i])` on models all equal to `fresh` (`bo_multi.hpp:240-244`); `done` are the models already
computed. -/
def computeModels (P : MuParams α M) (fresh : M) (samples : List (List α)) : List (List (List α)) → List M → Res (List M)
  | [], done => .ok done
  | c :: cols, done =>
    match P.ops.compute samples c fresh with
    | .ok m => computeModels P fresh samples cols (done ++ [m])
    | .throw e m => .throw e (done ++ m :: cols.map fun _ => fresh)
    | .ub => .ub
    | .diverge => .diverge

/-- `_update_models` (`bo_multi.hpp:233-245`); `_samples[0]` and `_observations[0]` of empty vectors are undefined. -/
def updateModels (P : MuParams α M) (st : BoState α (MM α M)) : Res (BoState α (MM α M)) :=
  match st.samples.head?, st.observations.head? with
  | some s0, some o0 =>
    match pushRows st.observations (List.replicate o0.length []) with
    | none => .ub
    | some cols =>
      (computeModels P (P.ops.fresh s0.length 1) st.samples cols []).bind
        (fun ms => .ok { st with model := { st.model with models := ms } }) (fun ms => { st with model := { st.model with models := ms } })
  | _, _ => .ub

/-- `update_pareto_model<D>()` (`bo_multi.hpp:182-213`). -/
def updateParetoModel (P : MuParams α M) (dim : Nat) (st : BoState α (MM α M)) : Res (BoState α (MM α M)) :=
  (updateModels P st).andThen fun st =>
    match P.sferes with
    | none => .ok st
    | some ea => .ok { st with model := { st.model with
        paretoModel := (ea st dim).map fun p => (p.1, p.2, st.model.models.map fun m => P.sigma m p.1) } }

/-- `pareto_set<K>(v)` with its two assertions (`pareto.hpp:197-207`). -/
def callPset (P : MuParams α M) (K : Nat) (obj : PPoint α → List α) (st : BoState α (MM α M)) (v : List (PPoint α)) : Option (List (PPoint α)) :=
  match v.head? with
  | some x => if 1 < (obj x).length then some (P.pset K st v) else none
  | none => none

/-- `update_pareto_data()` with `_pack_data` (`bo_multi.hpp:173-180, 220-231`). -/
def updateParetoData (P : MuParams α M) (st : BoState α (MM α M)) : Res (BoState α (MM α M)) :=
  match st.observations.head? with
  | none => .ub
  | some o0 =>
    if st.samples.length = st.observations.length then
      match callPset P 1 (fun p => p.2.1) st
          (List.zipWith (fun x y => (x, y, List.replicate o0.length (lit 0))) st.samples st.observations) with
      | some r => .ok { st with model := { st.model with paretoData := r } }
      | none => .ub
    else .ub

/-- Outcomes of the inner optimizations, collected: undefined behaviour or an exception in any of them ends the parallel loop with it. -/
def collect : List (OptRes α) → OptRes (List α)
  | [] => .point []
  | .ub :: _ => .ub
  | .threw :: rs => match collect rs with
    | .ub => .ub
    | _ => .threw
  | .point x :: rs => match collect rs with
    | .point xs => .point (x :: xs)
    | r => r

/-- `acqui::Ehvi::operator()` (`experimental/acqui/ehvi.hpp:70-79`) with `FirstElem`. -/
def ehviAcq (P : MuParams α M) (pop : List (α × α)) (m0 m1 : M) (x : List α) : α :=
  P.ehvi2d pop P.ref (P.mu m0 x, P.mu m1 x) (P.sigma m0 x, P.sigma m1 x)

/-- End of an iteration: evaluation, statistics, counters (`ehvi.hpp:157-160`, `nsbo.hpp:86-95`). -/
def muFinish (P : MuParams α M) (f : StateFun α (MM α M)) (afun : List α → α) (needTwo : Bool) (x : List α) (st : BoState α (MM α M)) :
    Res (BoState α (MM α M)) :=
  (evalAndAdd f x st).andThen fun st =>
  (if needTwo && st.model.models.length < 2 then .ub else .ok st : Res _).andThen fun st =>
  (updateStats P.bo afun st).andThen fun st =>
  .ok { st with currentIteration := st.currentIteration + 1, totalIterations := st.totalIterations + 1 }

/-- The best result of the inner optimizations started at every point of the data's Pareto front (`ehvi.hpp:113-150`).
`none` = an objective vector with less than two entries, or a number of models other than two (assertion of the acquisition function).
The inner optimizations do not call the user's objective, so the order in which they run is not observable. -/
def ehviPick (P : MuParams α M) (st : BoState α (MM α M)) : OptRes α :=
  match st.model.paretoData.mapM (fun p => do pure (← p.2.1[0]?, ← p.2.1[1]?)), st.model.models with
  | some pop, [m0, m1] =>
    let acq := ehviAcq P pop m0 m1
    match collect ((st.model.paretoData.zipIdx).map fun p => P.inner st p.2 (fun x _ => (acq x, none)) p.1.1 true) with
    | .ub => .ub
    | .threw => .threw
    | .point ss =>
      .point (parMax ([lit 0], negFltMax) (fun i => match ss[i]? with
        | some s => (s, acq s)
        | none => ([lit 0], negFltMax)) (fun a b => lt b.2 a.2) (P.sched st ss.length)).1
  | _, _ => .ub

/-- The body of the loop of `Ehvi::optimize` (`ehvi.hpp:110-160`). -/
def ehviIteration (P : MuParams α M) (f : StateFun α (MM α M)) (afun : List α → α) (st : BoState α (MM α M)) : Res (BoState α (MM α M)) :=
  (updateParetoModel P f.dimIn st).andThen fun st =>
  (updateParetoData P st).andThen fun st =>
  match ehviPick P st with
  | .ub => .ub
  | .threw => .throw .other st
  | .point x => muFinish P f afun false x st

/-- The body of the loop of `Nsbo::optimize` (`nsbo.hpp:75-95`).  The progress message reads `_models[0]` and `_models[1]`. -/
def nsboIteration (P : MuParams α M) (f : StateFun α (MM α M)) (afun : List α → α) (st : BoState α (MM α M)) : Res (BoState α (MM α M)) :=
  (updateParetoModel P f.dimIn st).andThen fun st =>
  match callPset P 2 (fun p => p.2.2) st st.model.paretoModel with
  | none => .ub
  | some pv =>
    match pv[P.rand st % pv.length]? with
    | none => .ub
    | some best => muFinish P f afun true best.1 st

/-- `while (_samples.size() == 0 || !_stop(...))` (`ehvi.hpp:109`, `nsbo.hpp:74`): without samples the criteria are not consulted. -/
def muLoop (P : MuParams α M) (body : BoState α (MM α M) → Res (BoState α (MM α M))) (afun : List α → α) :
    Nat → BoState α (MM α M) → Res (BoState α (MM α M))
  | 0, _ => .diverge
  | fuel + 1, st =>
    if st.samples.length = 0 then (body st).andThen (muLoop P body afun fuel)
    else match boStop P.bo afun st with
      | none => .ub
      | some (true, st) => .ok st
      | some (false, st) => (body st).andThen (muLoop P body afun fuel)

/-- Which of the two optimizers. -/
inductive MuKind
  | ehvi
  | nsbo

/-- The body of the loop. -/
def muBody (k : MuKind) (P : MuParams α M) (f : StateFun α (MM α M)) (afun : List α → α) : BoState α (MM α M) → Res (BoState α (MM α M)) :=
  match k with
  | .ehvi => ehviIteration P f afun
  | .nsbo => nsboIteration P f afun

/-- `Ehvi::optimize` (`ehvi.hpp:102-162`) and `Nsbo::optimize` (`nsbo.hpp:69-97`); the aggregator is always `FirstElem`. -/
def muOptimize (k : MuKind) (P : MuParams α M) (f : StateFun α (MM α M)) (afun : List α → α) (reset : Bool) (fuel : Nat)
    (st : BoState α (MM α M)) : Res (BoState α (MM α M)) :=
  (boInit P.bo f reset (st.push (.start reset))).andThen (muLoop P (muBody k P f afun) afun fuel)

/-- A call made by the user on the object. -/
inductive MuOp (α M : Type)
  | optimize (k : MuKind) (f : StateFun α (MM α M)) (afun : List α → α) (reset : Bool) (fuel : Nat)
  | addNewSample (s v : List α)
  | evalAndAdd (f : StateFun α (MM α M)) (x : List α)
  | updateParetoData
  | updateParetoModel (dim : Nat)

/-- Effect of one call. -/
def muOp (P : MuParams α M) : MuOp α M → BoState α (MM α M) → Res (BoState α (MM α M))
  | .optimize k f afun reset fuel, st => muOptimize k P f afun reset fuel st
  | .addNewSample s v, st => Limbo.addNewSample s v (st.push (.given s v))
  | .evalAndAdd f x, st => Limbo.evalAndAdd f x st
  | .updateParetoData, st => Limbo.updateParetoData P st
  | .updateParetoModel d, st => Limbo.updateParetoModel P d st

/-- Effect of a sequence of calls; exceptions are caught by the user.  `none` = undefined behaviour or a call that does not return. -/
def muOps (P : MuParams α M) : List (MuOp α M) → BoState α (MM α M) → Option (BoState α (MM α M))
  | [], st => some st
  | op :: ops, st =>
    match muOp P op st with
    | .ok st => muOps P ops st
    | .throw _ st => muOps P ops st
    | .ub => none
    | .diverge => none

end Limbo
