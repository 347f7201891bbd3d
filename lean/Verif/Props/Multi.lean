import Verif.Lemmas.Multi3
import Verif.Props.Bo

/-! Properties C72-C75: the multi-objective optimizers `Ehvi` and `Nsbo`. -/

namespace Limbo

set_option linter.unusedSectionVars false

/-! ## Concrete optimizers for the examples -/

/-- Two-objective optimizer with a model that stores its data; the inner optimizer adds one to the start point, the serial schedule is used and
the improvement formula returns `v`. -/
def exMu (v : F64) (sferes : Bool) : MuParams F64 (List (List F64 × List F64)) where
  bo := { bounded := true, statsEnabled := false, hpPeriod := -1, ops := ⟨fun _ _ => ⟨[], [], []⟩, fun _ _ m => .ok m, fun _ _ m => .ok m, fun m => .ok m⟩,
          initPts := fun _ d => some [List.replicate d (F64.of 0)], acqui := fun _ _ _ => fun _ _ => (F64.of 0, none),
          acquiOpt := fun _ _ x _ => .point x, startPt := fun _ d => List.replicate d (F64.of 0), stop := [maxIterations 2], stats := [] }
  ops := storeOps F64
  mu := fun _ _ => F64.of 0
  sigma := fun m x => if m.length = 0 then F64.of 0 else x.headD (F64.of 0)
  sferes := if sferes then some fun _ d => [(List.replicate d (F64.of (1/2)), [F64.of 0, F64.of 0]), (List.replicate d (F64.of (1/4)), [F64.of 1, F64.of 0])]
    else none
  pset := fun K _ v => if K = 1 then psetOf (fun p => p.2.1) v else psetOf (fun p => p.2.2) v
  rand := fun st => st.samples.length
  inner := fun _ _ _ x _ => .point (x.map fun y => y + F64.of 1)
  ehvi2d := fun _ _ _ _ => v
  ref := (F64.of (-11), F64.of (-11))
  sched := fun _ n => .chunk n

/-- The objective `(x0, x0, ..)` with `d` equal entries. -/
def exMuF (dimIn d : Nat) : StateFun F64 (MM F64 (List (List F64 × List F64))) where
  dimIn := dimIn
  dimOut := d
  call := fun _ x => .ret (List.replicate d (x.headD (F64.of 0)))

theorem exMu_psetOk (v : F64) (s : Bool) : PsetOk (exMu v s) := by
  rintro K obj (⟨rfl, rfl⟩ | ⟨rfl, rfl⟩) st w d hd hne hg
  · exact psetOf_ok d _ w hd hne hg
  · exact psetOf_ok d _ w hd hne hg

theorem exMu_sched (v : F64) (s : Bool) : ∀ st n, ((exMu v s).sched st n).size = n := fun _ _ => rfl

section
variable {α M : Type} [Scalar α]

/-! ## C72 the Pareto set of the data -/

/-- After any history, a call of `update_pareto_data` that returns leaves in `pareto_data` exactly the stored pairs whose observation no stored
observation dominates; nothing else changes.  (All observations have the same number `d >= 2` of entries.) -/
theorem C72_pareto_data [LawfulCmp α] (P : MuParams α M) (hp : PsetOk P) (c : Int) (ops : List (MuOp α M)) (st st' : BoState α (MM α M))
    (d : Nat) (hd : 1 < d) (h : muOps P ops (newMulti P c) = some st) (hO : ∀ v ∈ st.observations, v.length = d)
    (h' : updateParetoData P st = .ok st') :
    ParetoOf d st.samples st.observations st'.model.paretoData ∧ st'.samples = st.samples ∧ st'.observations = st.observations ∧
      st'.model.models = st.model.models ∧ st'.trace = st.trace := by
  have hI := muOps_inv (muOp_data P) ops _ st (newBo_inv P.bo c _) h
  obtain ⟨o0, r, k1, k2, k3, k4⟩ := updateParetoData_ok h'
  obtain ⟨rfl, -⟩ := callPset_some k3
  have ho : o0.length = d := hO o0 (List.mem_of_head? k1)
  rw [k4]
  refine ⟨?_, rfl, rfl, rfl, rfl⟩
  simp only
  rw [ho]
  exact paretoOf_pset hp hd hI.len (by rintro e; rw [e] at k1; simp at k1) fun v hv => ⟨hO v hv, hI.fin v hv⟩

/-- ... and it does return when there is data. -/
theorem C72_defined (P : MuParams α M) (c : Int) (ops : List (MuOp α M)) (st : BoState α (MM α M)) (d : Nat) (hd : 1 < d)
    (h : muOps P ops (newMulti P c) = some st) (hO : ∀ v ∈ st.observations, v.length = d) (hne : st.observations ≠ []) :
    ∃ st', updateParetoData P st = .ok st' := by
  have hI := muOps_inv (muOp_data P) ops _ st (newBo_inv P.bo c _) h
  obtain ⟨o0, os, ho⟩ := List.exists_cons_of_ne_nil hne
  obtain ⟨s0, ss, hs⟩ : ∃ s0 ss, st.samples = s0 :: ss := List.exists_cons_of_ne_nil fun e => by
    have := hI.len
    rw [e, ho] at this
    simp at this
  have hl : st.samples.length = st.observations.length := hI.len
  refine ⟨{ st with model := { st.model with paretoData := (P.pset 1 st (List.zipWith (fun x y =>
      (x, y, List.replicate o0.length (lit 0))) st.samples st.observations)) } }, ?_⟩
  · unfold updateParetoData
    have h0 : st.observations.head? = some o0 := by rw [ho]; rfl
    rw [h0]
    simp only
    rw [if_pos hl]
    have : callPset P 1 (fun p => p.2.1) st (List.zipWith (fun x y => (x, y, List.replicate o0.length (lit 0))) st.samples st.observations) =
        some (P.pset 1 st (List.zipWith (fun x y => (x, y, List.replicate o0.length (lit 0))) st.samples st.observations)) := by
      unfold callPset
      have hh : (List.zipWith (fun x y => (x, y, List.replicate o0.length (lit 0 : α))) st.samples st.observations).head? =
          some (s0, o0, List.replicate o0.length (lit 0)) := by rw [hs, ho]; rfl
      rw [hh]
      simp only
      rw [if_pos (by rw [hO o0 (by rw [ho]; simp)]; exact hd)]
    rw [this]

/-- With less than two objectives (or no data) the call is undefined: an assertion of `pareto_set`, or `_observations[0]` of an empty vector. -/
theorem C72_undefined (P : MuParams α M) (st : BoState α (MM α M)) (h : ∀ v, st.observations.head? = some v → v.length ≤ 1) :
    updateParetoData P st = .ub := by
  cases hr : updateParetoData P st with
  | ub => rfl
  | ok s =>
    obtain ⟨o0, r, k1, k2, k3, -⟩ := updateParetoData_ok hr
    obtain ⟨-, x, hx, hl⟩ := callPset_some k3
    have hlen : 1 < o0.length := by
      cases ho : st.observations with
      | nil => rw [ho] at k1; simp at k1
      | cons o os =>
        cases hs : st.samples with
        | nil => rw [hs, ho] at k2; simp at k2
        | cons s0 ss =>
          rw [hs, ho] at hx
          rw [ho] at k1
          simp at hx k1
          rw [← hx] at hl
          rw [← k1]
          exact hl
    have := h o0 k1
    omega
  | throw e s =>
    have := updateParetoData_all P st (fun _ => True) (fun _ => False) (fun _ => trivial)
    rw [hr] at this
    exact this.elim
  | diverge =>
    exfalso
    revert hr
    unfold updateParetoData
    split
    · simp
    · split
      · split <;> simp
      · simp

/-- After a run of `Ehvi` that made at least one iteration, `pareto_data` is the Pareto set of all the data *except the last evaluation*. -/
theorem C72_after_ehvi [LawfulArith α] (P : MuParams α M) (data : M → List (List α × List α)) (hL : LawfulModel P.ops data) (hp : PsetOk P)
    (hs : ∀ st n, (P.sched st n).size = n) (c : Int) (ops : List (MuOp α M)) (f : StateFun α (MM α M)) (afun : List α → α) (reset : Bool)
    (fuel : Nat) (st st' : BoState α (MM α M)) (h : muOps P ops (newMulti P c) = some st)
    (h' : muOptimize .ehvi P f afun reset fuel st = .ok st') (hO : ∀ v ∈ st'.observations, v.length = 2) (hit : st'.currentIteration ≠ 0) :
    ParetoOf 2 st'.samples.dropLast st'.observations.dropLast st'.model.paretoData := by
  have hI := muOps_inv (muOp_data P) ops _ st (newBo_inv P.bo c _) h
  obtain ⟨b1, h1, h2⟩ := Res.andThen_ok h'
  have hI1 := boInit_inv P.bo f reset st hI
  rw [h1] at hI1
  obtain ⟨-, n, hn⟩ := muLoop_ok h2
  obtain ⟨-, -, -, -, -, -, -, a3, -⟩ := hn.sum
  have hc0 : b1.currentIteration = 0 := boInit_currentIteration h1
  exact ((hn.ehvi hL.learns hp hs hI1.len hI1.fin hO).2.1 (by rintro rfl; exact hit (by rw [a3, hc0]; rfl))).1

/-! ## C73 one model per objective -/

/-- After any history, `update_pareto_model` (when it returns) has rebuilt one model per objective, model `j` holding exactly the stored
samples with the `j`-th entries of their observations. -/
theorem C73_models (P : MuParams α M) (data : M → List (List α × List α)) (hL : LawfulModel P.ops data) (c : Int) (ops : List (MuOp α M))
    (st st' : BoState α (MM α M)) (dim d : Nat) (h : muOps P ops (newMulti P c) = some st) (hO : ∀ v ∈ st.observations, v.length = d)
    (h' : updateParetoModel P dim st = .ok st') :
    FittedTo data d st.samples st.observations st'.model.models ∧ st'.samples = st.samples ∧ st'.observations = st.observations ∧
      st'.model.paretoData = st.model.paretoData := by
  have hI := muOps_inv (muOp_data P) ops _ st (newBo_inv P.bo c _) h
  obtain ⟨st1, g1, g2, g3, g4, -⟩ := updateParetoModel_ok h'
  rw [g3]
  exact ⟨updateModels_fitted hL.learns g1 hI.len hO, by rw [g2], by rw [g2], g4⟩

/-- ... and it does return when there is data and the model accepts it. -/
theorem C73_defined (P : MuParams α M) (c : Int) (ops : List (MuOp α M)) (st : BoState α (MM α M)) (dim d : Nat)
    (h : muOps P ops (newMulti P c) = some st) (hO : ∀ v ∈ st.observations, v.length = d) (hne : st.observations ≠ [])
    (hc : ∀ s v m, s ≠ [] → s.length = v.length → ∃ m', P.ops.compute s v m = .ok m') : ∃ st', updateParetoModel P dim st = .ok st' := by
  have hI := muOps_inv (muOp_data P) ops _ st (newBo_inv P.bo c _) h
  obtain ⟨o0, os, ho⟩ := List.exists_cons_of_ne_nil hne
  have hsne : st.samples ≠ [] := fun e => by
    have := hI.len
    rw [e, ho] at this
    simp at this
  obtain ⟨s0, ss, hs⟩ := List.exists_cons_of_ne_nil hsne
  have hd0 : o0.length = d := hO o0 (by rw [ho]; simp)
  obtain ⟨cols, c1, c2, c3⟩ := pushRows_spec d st.observations (List.replicate o0.length []) hO (by simp [hd0])
  obtain ⟨ms, hms⟩ := computeModels_def (P := P) (fresh := P.ops.fresh s0.length 1) (S := st.samples) cols [] (fun cl hcl => by
    obtain ⟨j, hj, rfl⟩ := List.getElem_of_mem hcl
    have := c3 j [] (by simp [hd0, ← c2, hj])
    rw [List.getElem?_eq_getElem hj, Option.some.injEq, List.nil_append] at this
    exact hc _ _ _ hsne (by rw [this, column_length]; exact hI.len))
  have hu : updateModels P st = .ok { st with model := { st.model with models := ms } } := by
    unfold updateModels
    have e1 : st.samples.head? = some s0 := by rw [hs]; rfl
    have e2 : st.observations.head? = some o0 := by rw [ho]; rfl
    rw [e1, e2]
    simp only
    rw [c1]
    simp only
    rw [hms]
    rfl
  unfold updateParetoModel
  rw [hu]
  simp only [Res.andThen, Res.bind]
  cases P.sferes <;> exact ⟨_, rfl⟩

/-- An observation with more entries than the first one makes it undefined (`uni_obs[j]` out of range). -/
theorem C73_longer_observation_ub (P : MuParams α M) (st : BoState α (MM α M)) (dim : Nat) (o0 v : List α) (h0 : st.observations.head? = some o0)
    (hv : v ∈ st.observations) (hl : o0.length < v.length) : updateParetoModel P dim st = .ub := by
  have : updateModels P st = .ub := by
    unfold updateModels
    split
    · next s0 o0' h1 h2 =>
      rw [h0, Option.some.injEq] at h2
      subst h2
      rw [pushRows_long st.observations _ v hv (by simpa using hl)]
    · rfl
  simp only [updateParetoModel, this, Res.andThen, Res.bind]

/-- After a run of `Ehvi` or `Nsbo` with at least one iteration the models hold all the data *except the last evaluation*. -/
theorem C73_after_run [LawfulArith α] (P : MuParams α M) (data : M → List (List α × List α)) (hL : LawfulModel P.ops data) (hp : PsetOk P)
    (hs : ∀ st n, (P.sched st n).size = n) (k : MuKind) (c : Int) (ops : List (MuOp α M)) (f : StateFun α (MM α M)) (afun : List α → α)
    (reset : Bool) (fuel : Nat) (st st' : BoState α (MM α M)) (h : muOps P ops (newMulti P c) = some st)
    (h' : muOptimize k P f afun reset fuel st = .ok st') (d : Nat) (hO : ∀ v ∈ st'.observations, v.length = d) (hk : k = .ehvi → d = 2)
    (hit : st'.currentIteration ≠ 0) :
    FittedTo data d st'.samples.dropLast st'.observations.dropLast st'.model.models := by
  have hI := muOps_inv (muOp_data P) ops _ st (newBo_inv P.bo c _) h
  obtain ⟨b1, h1, h2⟩ := Res.andThen_ok h'
  have hI1 := boInit_inv P.bo f reset st hI
  rw [h1] at hI1
  obtain ⟨-, n, hn⟩ := muLoop_ok h2
  obtain ⟨-, -, -, -, -, -, -, a3, -⟩ := hn.sum
  have hc0 : b1.currentIteration = 0 := boInit_currentIteration h1
  have hne : n ≠ 0 := by rintro rfl; exact hit (by rw [a3, hc0]; rfl)
  cases k with
  | ehvi => have := hk rfl; subst this; exact ((hn.ehvi hL.learns hp hs hI1.len hI1.fin hO).2.1 hne).2
  | nsbo => exact (hn.nsbo hL.learns hI1.len hO).1 hne

/-! ## C74 the points evaluated -/

/-- Every point `Ehvi::optimize` evaluates after the initial ones is the documented choice on the data before it (`EhviChoice`), whatever the
schedule of the parallel loop. -/
theorem C74_every_evaluation [LawfulArith α] (P : MuParams α M) (data : M → List (List α × List α)) (hL : LawfulModel P.ops data) (hp : PsetOk P)
    (hs : ∀ st n, (P.sched st n).size = n) (c : Int) (ops : List (MuOp α M)) (f : StateFun α (MM α M)) (afun : List α → α) (reset : Bool)
    (fuel : Nat) (st st' : BoState α (MM α M)) (h : muOps P ops (newMulti P c) = some st)
    (h' : muOptimize .ehvi P f afun reset fuel st = .ok st') (hO : ∀ v ∈ st'.observations, v.length = 2) :
    ∃ n0 : Nat, (st'.samples.length : Int) = n0 + st'.currentIteration ∧
      ∀ j x, n0 ≤ j → st'.samples[j]? = some x → EhviChoice P data (st'.samples.take j) (st'.observations.take j) x := by
  have hI := muOps_inv (muOp_data P) ops _ st (newBo_inv P.bo c _) h
  obtain ⟨b1, h1, h2⟩ := Res.andThen_ok h'
  have hI1 := boInit_inv P.bo f reset st hI
  rw [h1] at hI1
  obtain ⟨-, n, hn⟩ := muLoop_ok h2
  obtain ⟨xs, -, l1, -, -, a1, -, a3, -⟩ := hn.sum
  have hc0 : b1.currentIteration = 0 := boInit_currentIteration h1
  refine ⟨b1.samples.length, by rw [a1, a3, hc0, List.length_append, l1]; push_cast; ring, (hn.ehvi hL.learns hp hs hI1.len hI1.fin hO).1⟩

/-- Every point `Nsbo::optimize` evaluates comes from the front that the evolutionary algorithm found on models fitted to the data before it,
and no point of that front has larger standard deviations (in the sense of dominance).  Premise: standard deviations are not NaN. -/
theorem C74_nsbo_every_evaluation [LawfulCmp α] (P : MuParams α M) (data : M → List (List α × List α)) (hL : LawfulModel P.ops data) (hp : PsetOk P)
    (hsig : ∀ m x, isNaN (P.sigma m x) = false) (ea : BoState α (MM α M) → Nat → List (List α × List α)) (hea : P.sferes = some ea)
    (c : Int) (ops : List (MuOp α M)) (f : StateFun α (MM α M)) (afun : List α → α) (reset : Bool) (fuel : Nat) (st st' : BoState α (MM α M))
    (h : muOps P ops (newMulti P c) = some st) (h' : muOptimize .nsbo P f afun reset fuel st = .ok st') (d : Nat)
    (hO : ∀ v ∈ st'.observations, v.length = d) :
    ∃ n0 : Nat, (st'.samples.length : Int) = n0 + st'.currentIteration ∧
      ∀ j x, n0 ≤ j → st'.samples[j]? = some x →
        ∃ s : BoState α (MM α M), s.samples = st'.samples.take j ∧ s.observations = st'.observations.take j ∧
          FittedTo data d s.samples s.observations s.model.models ∧ (∃ y, (x, y) ∈ ea s f.dimIn) ∧
          ∀ p ∈ ea s f.dimIn, ¬ Dominates (s.model.models.map fun m => P.sigma m p.1) (s.model.models.map fun m => P.sigma m x) := by
  have hI := muOps_inv (muOp_data P) ops _ st (newBo_inv P.bo c _) h
  obtain ⟨b1, h1, h2⟩ := Res.andThen_ok h'
  have hI1 := boInit_inv P.bo f reset st hI
  rw [h1] at hI1
  obtain ⟨-, n, hn⟩ := muLoop_ok h2
  obtain ⟨xs, -, l1, -, -, a1, -, a3, -⟩ := hn.sum
  have hc0 : b1.currentIteration = 0 := boInit_currentIteration h1
  refine ⟨b1.samples.length, by rw [a1, a3, hc0, List.length_append, l1]; push_cast; ring, ?_⟩
  exact hn.nsbo_choice hL.learns hp hea (fun s _ _ _ _ _ m _ p _ => hsig m p.1) hI1.len hO

/-! ## C75 the stored data, budget, and undefined runs -/

/-- After any history the stored pairs are exactly the finite evaluations (and user-supplied pairs) since the last reset, in order. -/
theorem C75_samples_observations_paired (P : MuParams α M) (c : Int) (ops : List (MuOp α M)) (st : BoState α (MM α M))
    (h : muOps P ops (newMulti P c) = some st) :
    st.samples.length = st.observations.length ∧ st.samples.zip st.observations = expect st.trace ∧ ∀ v ∈ st.observations, AllFinite v := by
  have hI := muOps_inv (muOp_data P) ops _ st (newBo_inv P.bo c _) h
  exact ⟨hI.len, hI.zip, hI.fin⟩

/-- With `MaxIterations` a run that returns normally has started from at least one sample and added exactly `max N 0` evaluations to the data
present after initialisation. -/
theorem C75_budget (k : MuKind) (P : MuParams α M) (N : Int) (hP : P.bo.stop = [maxIterations N]) (f : StateFun α (MM α M)) (afun : List α → α)
    (reset : Bool) (fuel : Nat) (st st' : BoState α (MM α M)) (h : muOptimize k P f afun reset fuel st = .ok st') :
    ∃ b1, boInit P.bo f reset (st.push (.start reset)) = .ok b1 ∧ b1.samples ≠ [] ∧ b1.samples <+: st'.samples ∧
      b1.observations <+: st'.observations ∧ st'.samples.length = b1.samples.length + N.toNat ∧
      st'.observations.length = b1.observations.length + N.toNat := by
  obtain ⟨b1, h1, h2⟩ := Res.andThen_ok h
  obtain ⟨hne, n, hn⟩ := muLoop_ok h2
  have hc := hn.count_maxIterations hP
  rw [boInit_currentIteration h1] at hc
  obtain ⟨xs, vs, l1, l2, -, a1, a2, -, -⟩ := hn.sum
  have hN : N.toNat = n := by omega
  refine ⟨b1, h1, hne, ⟨xs, a1.symm⟩, ⟨vs, a2.symm⟩, ?_, ?_⟩
  · rw [a1, List.length_append, l1, hN]
  · rw [a2, List.length_append, l2, hN]

/-- Without a sample after initialisation the run is undefined: the stopping criteria are not consulted and `_samples[0]` is read. -/
theorem C75_no_initial_sample_ub (k : MuKind) (P : MuParams α M) (f : StateFun α (MM α M)) (afun : List α → α) (reset : Bool) (fuel : Nat)
    (st b1 : BoState α (MM α M)) (h1 : boInit P.bo f reset (st.push (.start reset)) = .ok b1) (he : b1.samples = []) :
    muOptimize k P f afun reset (fuel + 1) st = .ub := by
  simp only [muOptimize, h1, Res.andThen, Res.bind, muLoop]
  rw [if_pos (by rw [he]; rfl), muBody_empty k he]

/-- Compiled without Sferes, `Nsbo` cannot make an iteration: the model front is always empty.  A run that returns normally evaluated nothing but
the initial points. -/
theorem C75_nsbo_without_sferes (P : MuParams α M) (hS : P.sferes = none) (c : Int) (ops : List (MuOp α M)) (f : StateFun α (MM α M))
    (afun : List α → α) (reset : Bool) (fuel : Nat) (st st' : BoState α (MM α M)) (h : muOps P ops (newMulti P c) = some st)
    (h' : muOptimize .nsbo P f afun reset fuel st = .ok st') : st'.currentIteration = 0 := by
  have hA : ∀ ea, P.sferes = some ea → ∀ (st : BoState α (MM α M)) dim, ∀ p ∈ ea st dim,
      (fun _ : PPoint α => False) (p.1, p.2, st.model.models.map fun m => P.sigma m p.1) := by
    intro ea he
    rw [hS] at he
    simp at he
  have hI := muOps_inv (muOp_pmodel P (fun _ => False) hA) ops _ st (by intro p hp; simp [newMulti, newBo] at hp) h
  obtain ⟨b1, h1, h2⟩ := Res.andThen_ok h'
  have hm := boInit_model P.bo f reset st
  rw [h1] at hm
  replace hm : b1.model = st.model := hm
  obtain ⟨-, n, hn⟩ := muLoop_ok h2
  have hc0 : b1.currentIteration = 0 := boInit_currentIteration h1
  cases hn with
  | done hb =>
    obtain ⟨as, rfl, -⟩ := boStop_spec hb
    exact hc0
  | step hb hbody _ =>
    exfalso
    obtain ⟨as, rfl, -⟩ := boStop_spec hb
    obtain ⟨s1, pv, best, v, b1', b2, -⟩ := nsboIteration_ok hbody
    obtain ⟨sm, -, -, -, -, g5⟩ := updateParetoModel_ok b1'
    rw [hS] at g5
    simp only at g5
    obtain ⟨-, x, hx, -⟩ := callPset_some b2
    rw [g5, hm] at hx
    exact hI x (List.mem_of_head? hx)

/-- `Nsbo` with a single objective cannot make an iteration either. -/
theorem C75_nsbo_needs_two_objectives (P : MuParams α M) (data : M → List (List α × List α)) (hL : LawfulModel P.ops data) (c : Int)
    (ops : List (MuOp α M)) (f : StateFun α (MM α M)) (afun : List α → α) (reset : Bool) (fuel : Nat) (st st' : BoState α (MM α M))
    (h : muOps P ops (newMulti P c) = some st) (h' : muOptimize .nsbo P f afun reset fuel st = .ok st')
    (hO : ∀ v ∈ st'.observations, v.length ≤ 1) : st'.currentIteration = 0 := by
  have hI := muOps_inv (muOp_data P) ops _ st (newBo_inv P.bo c _) h
  obtain ⟨b1, h1, h2⟩ := Res.andThen_ok h'
  have hI1 := boInit_inv P.bo f reset st hI
  rw [h1] at hI1
  obtain ⟨hne, n, hn⟩ := muLoop_ok h2
  obtain ⟨xs, vs, l1, l2, -, a1, a2, a3, -⟩ := hn.sum
  have hc0 : b1.currentIteration = 0 := boInit_currentIteration h1
  cases hn with
  | done hb =>
    obtain ⟨as, rfl, -⟩ := boStop_spec hb
    exact hc0
  | step hb hbody hrest =>
    exfalso
    obtain ⟨as, rfl, -⟩ := boStop_spec hb
    change nsboIteration P f afun _ = _ at hbody
    unfold nsboIteration at hbody
    obtain ⟨s1, g0, g⟩ := Res.andThen_ok hbody
    cases hp : callPset P 2 (fun p => p.2.2) s1 s1.model.paretoModel with
    | none => rw [hp] at g; simp at g
    | some pv =>
      rw [hp] at g
      simp only at g
      cases hbest : pv[P.rand s1 % pv.length]? with
      | none => rw [hbest] at g; simp at g
      | some best =>
        rw [hbest] at g
        obtain ⟨-, -, -, -, -, -, -, -, hmod⟩ := muFinish_ok g
        have hmod := hmod rfl
        obtain ⟨st1, q1, -, q3, -⟩ := updateParetoModel_ok g0
        obtain ⟨s0, o0, cols, ms, r1, r2, r3, r4, rfl⟩ := updateModels_ok q1
        rw [q3] at hmod
        simp only at hmod r2
        have hlen : cols.length = o0.length := by
          have := pushRows_len _ _ _ r3
          simpa using this
        have := hO o0 (by rw [a2]; exact List.mem_append_left _ (List.mem_of_head? r2))
        rw [← r4.length_eq, hlen] at hmod
        omega

/-- If the initialiser, the inner optimizer and the evolutionary algorithm produce points of a set `B` (the unit box, say), `optimize` calls the
objective only at points of `B` - or, in the case of `Ehvi`, at the one-dimensional vector `(0)`.  However it ends. -/
theorem C75_objective_called_in (k : MuKind) (P : MuParams α M) (B : List α → Prop) (f : StateFun α (MM α M)) (afun : List α → α) (reset : Bool)
    (fuel : Nat) (hs : ∀ st n, (P.sched st n).size = n) [LawfulArith α]
    (hinit : ∀ st pts, P.bo.initPts st f.dimIn = some pts → ∀ x ∈ pts, B x)
    (hin : ∀ st i g x s, P.inner st i g x true = .point s → B s)
    (hsf : ∀ ea, P.sferes = some ea → ∀ st d, ∀ p ∈ ea st d, B p.1)
    (hpset : ∀ K st v, ∀ p ∈ P.pset K st v, p ∈ v)
    (c : Int) (ops : List (MuOp α M)) (st st' : BoState α (MM α M)) (h : muOps P ops (newMulti P c) = some st)
    (ho : muOptimize k P f afun reset fuel st = .ok st' ∨ ∃ e, muOptimize k P f afun reset fuel st = .throw e st') :
    ∃ seg, st'.trace = st.trace ++ .start reset :: seg ∧ ∀ x ∈ callPts seg, B x ∨ (k = .ehvi ∧ x = [lit 0]) := by
  have hA : ∀ ea, P.sferes = some ea → ∀ (st : BoState α (MM α M)) dim, ∀ p ∈ ea st dim,
      (fun q : PPoint α => B q.1) (p.1, p.2, st.model.models.map fun m => P.sigma m p.1) := fun ea he st dim p hp => hsf ea he st dim p hp
  have hI := muOps_inv (muOp_pmodel P (fun q => B q.1) hA) ops _ st (by intro p hp; simp [newMulti, newBo] at hp) h
  have hrun := (muInv_points P (fun x => B x ∨ (k = .ehvi ∧ x = [lit 0])) (st.push (.start reset)) (fun q => B q.1) hA).muOptimize k f afun reset
    fuel (fun s x hsx hp => by
      rcases hp with ⟨hk, hp⟩ | ⟨hk, pv, best, hp, hb, rfl⟩
      · obtain ⟨pop, m0, m1, results, -, -, e3, e4⟩ := ehviPick_spec hs hp
        rcases e4 with ⟨hx, -, -⟩ | ⟨hx, -⟩
        · left
          obtain ⟨i, hi, rfl⟩ := List.getElem_of_mem hx
          obtain ⟨i', hi'⟩ := (List.forall₂_iff_get.mp e3).2 i (by rw [e3.length_eq]; exact hi) hi
          exact hin _ _ _ _ _ hi'
        · exact Or.inr ⟨hk, hx⟩
      · left
        obtain ⟨rfl, -⟩ := callPset_some hp
        exact hsx.2 best (hpset _ _ _ _ hb))
    ((boInit_grows' P.bo f reset (fun s pts hp x hx => Or.inl (hinit s pts hp x hx)) st).and
      ((boInit_model P.bo f reset st).mono (fun s hs => by rw [hs]; exact hI) (fun s hs => by rw [hs]; exact hI)))
  have hg : Grows (fun x => B x ∨ (k = .ehvi ∧ x = [lit 0])) (st.push (.start reset)) st' := by
    rcases ho with ho | ⟨e, ho⟩ <;> (rw [ho] at hrun; exact hrun.1)
  obtain ⟨seg, h1, h2⟩ := hg
  exact ⟨seg, by rw [h1]; simp [BoState.push], callPts_grows h2⟩

end

/-! ## Witnesses and examples -/

/-- The run of `Ehvi` used below. -/
def exMuRun (k : MuKind) (v : F64) (s : Bool) (dimIn d : Nat) : Option (BoState F64 (MM F64 (List (List F64 × List F64)))) :=
  match muOptimize k (exMu v s) (exMuF dimIn d) firstElem true 10 (newMulti (exMu v s) 0) with
  | .ok st => some st
  | _ => none

/-- Three evaluations `0, 1, 2`; the stored Pareto set is stale: it holds the second evaluation, which the third one dominates. -/
theorem C72_stale_after_ehvi : ∃ st, exMuRun .ehvi (F64.of 1) false 1 2 = some st ∧
    st.samples = [[F64.of 0], [F64.of 1], [F64.of 2]] ∧
    st.model.paretoData = [([F64.of 1], [F64.of 1, F64.of 1], [F64.of 0, F64.of 0])] ∧
    dominate [F64.of 2, F64.of 2] [F64.of 1, F64.of 1] = true := by
  have h : (exMuRun .ehvi (F64.of 1) false 1 2).any (fun st => decide (st.samples = [[F64.of 0], [F64.of 1], [F64.of 2]] ∧
    st.model.paretoData = [([F64.of 1], [F64.of 1, F64.of 1], [F64.of 0, F64.of 0])])) = true := by decide +kernel
  obtain ⟨st, h1, h2⟩ := (Option.any_eq_true _ _).mp h
  exact ⟨st, h1, (of_decide_eq_true h2).1, (of_decide_eq_true h2).2, by decide +kernel⟩

/-- If the improvement is NaN (or at most `-FLT_MAX`) everywhere, a two-dimensional objective is called at the one-dimensional vector `(0)`. -/
theorem C74_zero_vector : ∃ st, exMuRun .ehvi F64.nan false 2 2 = some st ∧ (exMuF 2 2).dimIn = 2 ∧
    st.samples = [[F64.of 0, F64.of 0], [F64.of 0], [F64.of 0]] := by
  have h : (exMuRun .ehvi F64.nan false 2 2).any (fun st => decide (st.samples = [[F64.of 0, F64.of 0], [F64.of 0], [F64.of 0]])) = true := by
    decide +kernel
  obtain ⟨st, h1, h2⟩ := (Option.any_eq_true _ _).mp h
  exact ⟨st, h1, rfl, of_decide_eq_true h2⟩

/-- A run of `Nsbo`: both later evaluations are at the front point with the larger standard deviations. -/
example : (exMuRun .nsbo (F64.of 1) true 1 2).any (fun st => decide (st.samples = [[F64.of 0], [F64.of (1/2)], [F64.of (1/2)]])) = true := by
  decide +kernel

/-- The premises of the theorems hold for the example. -/
example : PsetOk (exMu (F64.of 1) true) ∧ (∀ st n, ((exMu (F64.of 1) true).sched st n).size = n) ∧
    LawfulModel (exMu (F64.of 1) true).ops id := ⟨exMu_psetOk _ _, exMu_sched _ _, storeOps_lawful F64⟩

end Limbo
