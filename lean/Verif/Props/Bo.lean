import Verif.Lemmas.BoLog
import Verif.Lemmas.F64Laws
import Verif.Props.GradOpt
import Verif.Props.Init

/-!
# C01–C10 — the Bayesian optimizer

`runOps P ops (newBo P c m) = some st` says: the user made the calls `ops` on a new optimizer (catching all exceptions) and the state is now
`st`.  `st.trace` is the chronological list of events.  `P` (template parameters), the objectives and the aggregators inside
`ops` are arbitrary.
-/

namespace Limbo

set_option linter.unusedSectionVars false

variable {α M : Type}
open LawfulCmp

/-! ## A concrete optimizer for the examples -/

/-- A model that just stores its data. -/
def storeOps (α : Type) : ModelOps α (List (List α × List α)) where
  fresh := fun _ _ => []
  compute := fun s v _ => .ok (s.zip v)
  addSample := fun s v m => .ok (m ++ [(s, v)])
  optHp := fun m => .ok m

theorem storeOps_lawful (α : Type) : LawfulModel (storeOps α) id where
  fresh := fun _ _ => rfl
  compute := by intro s v m m' _ h; simp only [storeOps, Res.ok.injEq] at h; exact h.symm
  addSample := by intro s v m m' h; simp only [storeOps, Res.ok.injEq] at h; exact h.symm
  optHp := by intro m m' h; simp only [storeOps, Res.ok.injEq] at h; exact h.symm

/-- binary64, two initial points (corners), three iterations at the centre, hyper-parameters every 2 iterations. -/
def exP : BoParams F64 (List (List F64 × List F64)) where
  bounded := true
  statsEnabled := true
  hpPeriod := 2
  ops := storeOps F64
  initPts := fun _ d => some [List.replicate d (F64.of 0), List.replicate d (F64.of 1)]
  acqui := fun _ _ _ => fun _ _ => (F64.of 0, none)
  acquiOpt := fun _ _ x _ => .point x
  startPt := fun _ d => List.replicate d (F64.of (1/2))
  stop := [maxIterations 3]
  stats := [statSamples, statObservations, statAggregated]

/-- The objective returns its argument, but NaN at its 4th call and an exception at its 10th call. -/
def exF : StateFun F64 (List (List F64 × List F64)) where
  dimIn := 2
  dimOut := 2
  call := fun tr x =>
    if (callPts tr).length = 3 then .ret [F64.nan, F64.of 0]
    else if (callPts tr).length = 9 then .threw else .ret x

/-- Aggregator: first element. -/
def firstElem (v : List F64) : F64 := v.headD F64.nan

/-- run 1 is interrupted by a NaN, run 2 continues, the user adds a point, run 3 is a fresh run interrupted by an exception. -/
def exOps : List (BoOp F64 (List (List F64 × List F64))) :=
  [.optimize exF firstElem true 10, .optimize exF firstElem false 10, .addNewSample [F64.of 7] [F64.of 8],
   .addNewSample [F64.of 7] [F64.nan], .optimize exF firstElem true 10]

section
variable [Scalar α]

/-! ## C01 samples and observations stay paired -/

/-- After any history the stored pairs are exactly the finite evaluations (and user-supplied pairs) since the last reset, in order. -/
theorem C01_samples_observations_paired (P : BoParams α M) (c : Int) (m : M) (ops : List (BoOp α M)) (st : BoState α M)
    (h : runOps P ops (newBo P c m) = some st) :
    st.samples.length = st.observations.length ∧ st.samples.zip st.observations = expect st.trace := by
  have := runOps_inv (I := DataInv) (fun op st h => runOp_inv P op st h) ops _ st (newBo_inv P c m) h
  exact ⟨this.len, this.zip⟩

/-- ... and in a state reached in the middle of a history, whatever the outcome of the next call (exception included), the same holds. -/
theorem C01_paired_after_exception (P : BoParams α M) (c : Int) (m : M) (ops : List (BoOp α M)) (st st' : BoState α M)
    (h : runOps P ops (newBo P c m) = some st) (op : BoOp α M) (e : Exn) (ho : runOp P op st = .throw e st') :
    st'.samples.length = st'.observations.length ∧ st'.samples.zip st'.observations = expect st'.trace := by
  have h1 := runOps_inv (I := DataInv) (fun op st h => runOp_inv P op st h) ops _ st (newBo_inv P c m) h
  have h2 := runOp_inv P op st h1
  rw [ho] at h2
  exact ⟨h2.len, h2.zip⟩

example : (runOps exP exOps (newBo exP 0 [])).map (fun st => (st.samples, st.observations, (callPts st.trace).length)) =
    some ([[F64.of 0, F64.of 0], [F64.of 1, F64.of 1]], [[F64.of 0, F64.of 0], [F64.of 1, F64.of 1]], 10) := by decide +kernel
example : (runOps exP (exOps.take 4) (newBo exP 0 [])).map (fun st => (st.samples.length, (callPts st.trace).length)) =
    some (7, 7) := by decide +kernel

/-! ## C02 non-finite observations are rejected -/

/-- `add_new_sample` with a NaN or infinite component raises `EvaluationError` and leaves the object unchanged; otherwise it appends. -/
theorem C02_add_new_sample (s v : List α) (st : BoState α M) :
    (¬ AllFinite v → addNewSample s v st = .throw .evaluationError st) ∧
    (AllFinite v → ∃ st', addNewSample s v st = .ok st' ∧ st'.samples = st.samples ++ [s] ∧ st'.observations = st.observations ++ [v]) := by
  constructor
  · intro h
    have : isNanOrInf v = true := by
      cases hb : isNanOrInf v with
      | true => rfl
      | false => exact absurd ((isNanOrInf_false v).1 hb) h
    simp [addNewSample, this]
  · intro h
    have := (isNanOrInf_false v).2 h
    exact ⟨_, by simp only [addNewSample, this]; rfl, rfl, rfl⟩

/-- `eval_and_add` when the objective returns a non-finite vector: `EvaluationError`, data unchanged. -/
theorem C02_eval_and_add (f : StateFun α M) (x v : List α) (st : BoState α M) (hv : f.call st.trace x = .ret v) (hbad : ¬ AllFinite v) :
    ∃ st', evalAndAdd f x st = .throw .evaluationError st' ∧ st'.samples = st.samples ∧ st'.observations = st.observations ∧
      st'.currentIteration = st.currentIteration ∧ st'.totalIterations = st.totalIterations := by
  refine ⟨st.push (.call x (.ret v)), ?_, rfl, rfl, rfl, rfl⟩
  unfold evalAndAdd
  simp only [hv]
  exact (C02_add_new_sample x v _).1 hbad

/-- No history can make `observations()` contain a NaN or an infinity. -/
theorem C02_observations_always_finite (P : BoParams α M) (c : Int) (m : M) (ops : List (BoOp α M)) (st : BoState α M)
    (h : runOps P ops (newBo P c m) = some st) : ∀ v ∈ st.observations, AllFinite v :=
  (runOps_inv (I := DataInv) (fun op st h => runOp_inv P op st h) ops _ st (newBo_inv P c m) h).fin

/-- A normally returning `optimize` saw no exception and no non-finite value. -/
theorem C02_optimize_ok_all_finite (P : BoParams α M) (f : StateFun α M) (afun : List α → α) (reset : Bool) (fuel : Nat)
    (st st' : BoState α M) (h : optimize P f afun reset fuel st = .ok st') :
    ∃ seg, st'.trace = st.trace ++ .start reset :: seg ∧ ∀ x r, (x, r) ∈ callsOf seg → ∃ v, r = .ret v ∧ AllFinite v := by
  obtain ⟨pts, vs0, m0, n, -, -, hlen, hfin, -, hl⟩ := optimize_ok h
  obtain ⟨seg, xs, vs, hs⟩ := hl.sum
  have htr : (initState reset st).trace = st.trace ++ [.start reset] := by cases reset <;> rfl
  refine ⟨retEvents pts vs0 ++ seg, by rw [hs.trace]; simp [htr], ?_⟩
  intro x r hm
  rw [callsOf_append, (retEvents_spec pts vs0 hlen.symm).2.1, hs.calls] at hm
  have key : ∀ (xs vs : List (List α)), (∀ v ∈ vs, AllFinite v) → (x, r) ∈ retCalls xs vs → ∃ v, r = .ret v ∧ AllFinite v := by
    intro xs
    induction xs with
    | nil => intro vs _ h; simp [retCalls] at h
    | cons a as ih =>
      intro vs hv h
      cases vs with
      | nil => simp [retCalls] at h
      | cons b bs =>
        simp only [retCalls, List.zipWith_cons_cons, List.mem_cons, Prod.mk.injEq] at h
        rcases h with h | h
        · exact ⟨b, h.2, hv b (by simp)⟩
        · exact ih bs (fun v hv' => hv v (by simp [hv'])) h
  rcases List.mem_append.1 hm with h | h
  · exact key _ _ hfin h
  · exact key _ _ hs.vfin h

/-- In the first run of the example the 4th evaluation is NaN: `optimize` raises `EvaluationError` and keeps the 3 earlier pairs. -/
example : (match optimize exP exF firstElem true 10 (newBo exP 0 []) with
    | .throw .evaluationError st => decide (st.samples = [[F64.of 0, F64.of 0], [F64.of 1, F64.of 1], [F64.of (1/2), F64.of (1/2)]] ∧
        (callPts st.trace).length = 4)
    | _ => false) = true := by decide +kernel
example : ¬ AllFinite [F64.of 1, F64.nan] := by intro h; have := (h F64.nan (by simp)).1; revert this; decide
example : AllFinite [F64.of 1, F64.of 2] := (all_finite_iff _).1 (by decide)

/-! ## C03 best observation and best sample -/

/-- With at least one observation and an aggregator that is never NaN on the stored observations: both calls are defined and return the data at
the same index, which is the first index of maximal aggregated value. -/
theorem C03_best [LawfulCmp α] (P : BoParams α M) (c : Int) (m : M) (ops : List (BoOp α M)) (st : BoState α M)
    (h : runOps P ops (newBo P c m) = some st) (hne : st.observations ≠ []) (afun : List α → α)
    (hnan : ∀ v ∈ st.observations, isNaN (afun v) = false) :
    ∃ (i : Nat) (x v : List α), st.observations[i]? = some v ∧ st.samples[i]? = some x ∧
      bestObservation afun st = some v ∧ bestSample afun st = some x ∧
      (∀ (j : Nat) w, st.observations[j]? = some w → le (afun w) (afun v) = true) ∧
      (∀ (j : Nat) w, j < i → st.observations[j]? = some w → lt (afun w) (afun v) = true) := by
  obtain ⟨hlen, -⟩ := C01_samples_observations_paired P c m ops st h
  obtain ⟨b, h1, h2, h3⟩ := maxElement_spec (st.observations.map afun) (by simpa using hne)
    (by intro x hx; obtain ⟨v, hv, rfl⟩ := List.mem_map.1 hx; exact hnan v hv)
  rw [List.getElem?_map, Option.map_eq_some_iff] at h1
  obtain ⟨v, hv, rfl⟩ := h1
  have hi : maxElement (st.observations.map afun) < st.samples.length := by
    rw [hlen]
    rcases Nat.lt_or_ge (maxElement (st.observations.map afun)) st.observations.length with h | h
    · exact h
    · rw [List.getElem?_eq_none h] at hv; simp at hv
  refine ⟨_, st.samples[maxElement (st.observations.map afun)], v, hv, List.getElem?_eq_getElem hi, hv, List.getElem?_eq_getElem hi, ?_, ?_⟩
  · intro j w hw
    exact h2 j (afun w) (by simp [hw])
  · intro j w hj hw
    exact h3 j (afun w) hj (by simp [hw])

/-- The aggregated best never decreases when observations are added. -/
theorem C03_best_monotone [LawfulCmp α] (st st' : BoState α M) (afun : List α → α) (hpre : st.observations <+: st'.observations)
    (hnan : ∀ v ∈ st'.observations, isNaN (afun v) = false) (v v' : List α) (h : bestObservation afun st = some v)
    (h' : bestObservation afun st' = some v') : le (afun v) (afun v') = true := by
  have hmem : v ∈ st.observations := List.mem_of_getElem? h
  have hmem' : v ∈ st'.observations := hpre.subset hmem
  obtain ⟨b, h1, h2, -⟩ := maxElement_spec (st'.observations.map afun) (by
      intro hc; rw [List.map_eq_nil_iff] at hc; rw [hc] at hmem'; simp at hmem')
    (by intro x hx; obtain ⟨v, hv, rfl⟩ := List.mem_map.1 hx; exact hnan v hv)
  have e : b = afun v' := by
    simp only [bestObservation] at h'
    rw [List.getElem?_map, h'] at h1
    simpa using h1.symm
  obtain ⟨j, hj⟩ := List.getElem?_of_mem hmem'
  rw [← e]
  exact h2 j (afun v) (by simp [hj])

/-- With no observation the calls read past the end of an empty vector. -/
theorem C03_best_of_nothing (afun : List α → α) (st : BoState α M) (h : st.observations = []) : bestObservation afun st = none := by
  simp [bestObservation, h]

/-- An aggregator that returns NaN breaks maximality: with values NaN, 5 the first one is returned. -/
theorem C03_best_with_nan_aggregator :
    ∃ (st : BoState F64 Unit) (afun : List F64 → F64) (v : List F64), bestObservation afun st = some v ∧
      ∃ w ∈ st.observations, le (afun w) (afun v) = false ∧ isNaN (afun w) = false := by
  refine ⟨⟨[[F64.of 0], [F64.of 1]], [[F64.of 0], [F64.of 5]], 0, 0, (), [], []⟩, fun v => if v = [F64.of 0] then F64.nan else F64.of 5, [F64.of 0], by decide +kernel,
    [F64.of 5], by simp, by decide +kernel, by decide +kernel⟩

example : (runOps exP (exOps.take 2) (newBo exP 0 [])).map (fun st => (bestObservation firstElem st, bestSample firstElem st)) =
    some (some [F64.of 1, F64.of 1], some [F64.of 1, F64.of 1]) := by decide +kernel

/-! ## C04 evaluation budget -/

/-- With `MaxIterations(N)`, a normally returning `optimize` evaluated the objective exactly (initial points) + max(N,0) times; the
initialiser runs only if `reset` or no iteration was completed before. -/
theorem C04_budget_exact (P : BoParams α M) (N : Int) (hP : P.stop = [maxIterations N]) (f : StateFun α M) (afun : List α → α)
    (reset : Bool) (fuel : Nat) (st st' : BoState α M) (h : optimize P f afun reset fuel st = .ok st') :
    ∃ seg pts, st'.trace = st.trace ++ .start reset :: seg ∧
      (if reset = true ∨ st.totalIterations = 0 then (∃ s, P.initPts s f.dimIn = some pts) else pts = []) ∧
      ((callPts seg).length : Int) = pts.length + max N 0 ∧
      st'.currentIteration = max N 0 ∧
      st'.totalIterations = (if reset then 0 else st.totalIterations) + max N 0 := by
  obtain ⟨pts, vs0, m0, n, -, hp, hlen, -, -, hl⟩ := optimize_ok h
  obtain ⟨seg, xs, vs, hs⟩ := hl.sum
  have hn := hl.count_maxIterations hP
  have hc : (initState reset st).currentIteration = 0 := by cases reset <;> rfl
  have ht : (initState reset st).totalIterations = if reset then 0 else st.totalIterations := by cases reset <;> rfl
  have htr : (initState reset st).trace = st.trace ++ [.start reset] := by cases reset <;> rfl
  simp only [hc] at hn
  refine ⟨retEvents pts vs0 ++ seg, pts, by rw [hs.trace]; simp [htr], ?_, ?_, ?_, ?_⟩
  · by_cases hr : runsInit reset st
    · rw [if_pos hr] at hp ⊢; exact ⟨_, hp⟩
    · rw [if_neg hr] at hp ⊢; exact hp
  · rw [callPts_append, (retEvents_spec pts vs0 hlen.symm).1, hs.pts, List.length_append, hs.xlen]
    push_cast; omega
  · rw [hs.cur]; simp only [hc]; omega
  · rw [hs.tot]; simp only [ht]; omega

/-- With `MaxIterations(N)` among the criteria `optimize` always terminates (`N+1` loop tests are enough), provided the model's own functions do. -/
theorem C04_terminates (P : BoParams α M) (N : Int) (hP : maxIterations N ∈ P.stop) (f : StateFun α M) (afun : List α → α)
    (hcomp : ∀ s v m, P.ops.compute s v m ≠ .diverge) (hops : ∀ s v m, P.ops.addSample s v m ≠ .diverge)
    (hhp : ∀ m, P.ops.optHp m ≠ .diverge) (reset : Bool) (fuel : Nat) (hfuel : N < fuel) (st : BoState α M) :
    optimize P f afun reset (fuel + 1) st ≠ .diverge := by
  have hstop : ∀ afun (st : BoState α M) b st', boStop P afun st = some (b, st') → N ≤ st.currentIteration → b = true := by
    intro afun st b st' h hN
    unfold boStop at h
    have key : ∀ (cs : List (Criterion α M)) k b0 tr r, chainCriteria st afun cs k b0 tr = some r → (b0 = true ∨ maxIterations N ∈ cs) →
        r.1 = true := by
      intro cs
      induction cs with
      | nil => intro k b0 tr r h hb; simp only [chainCriteria, Option.some.injEq] at h; rw [← h]; simpa using hb
      | cons c cs ih =>
        intro k b0 tr r h hb
        simp only [chainCriteria] at h
        by_cases hb0 : b0 = true
        · rw [if_pos hb0] at h; exact ih _ _ _ _ h (Or.inl rfl)
        · rw [if_neg hb0] at h
          cases hcs : c st afun with
          | none => rw [hcs] at h; simp at h
          | some a =>
            rw [hcs] at h
            refine ih _ _ _ _ h ?_
            rcases hb with hb | hb
            · exact absurd hb hb0
            · rcases List.mem_cons.1 hb with rfl | hb
              · left
                simp only [maxIterations, Option.some.injEq] at hcs
                rw [← hcs]; simpa using hN
              · exact Or.inr hb
    cases hch : chainCriteria st afun P.stop 0 false st.trace with
    | none => rw [hch] at h; simp at h
    | some r =>
      rw [hch] at h
      simp only [Option.some.injEq, Prod.mk.injEq] at h
      rw [← h.1]; exact key _ _ _ _ _ hch (Or.inr hP)
  have hcur : ∀ s1, boInit P f reset (st.push (.start reset)) = .ok s1 → s1.currentIteration = 0 := by
    intro s1 h1
    rw [boInit_eq] at h1
    have hc : (initState reset st).currentIteration = 0 := by cases reset <;> rfl
    split at h1
    · split at h1
      · obtain ⟨vs, -, -, rfl⟩ := evalAll_ok h1; exact hc
      · simp at h1
    · simp only [Res.ok.injEq] at h1; rw [← h1]; exact hc
  have hea : ∀ (x : List α) (s : BoState α M), evalAndAdd f x s ≠ .diverge := by
    intro x s
    unfold evalAndAdd; simp only; split
    · simp
    · unfold addNewSample; split <;> simp
  have hall : ∀ (pts : List (List α)) (s : BoState α M), evalAll f pts s ≠ .diverge := by
    intro pts
    induction pts with
    | nil => intro s; simp [evalAll]
    | cons x xs ih =>
      intro s
      simp only [evalAll]
      cases hx : evalAndAdd f x s with
      | ok s1 => exact ih s1
      | throw e s => simp [Res.andThen, Res.bind]
      | ub => simp [Res.andThen, Res.bind]
      | diverge => exact absurd hx (hea x s)
  unfold optimize
  simp only
  cases hb : boInit P f reset (st.push (.start reset)) with
  | ok s1 =>
    show (boModelInit P f s1).andThen _ ≠ _
    cases hm : boModelInit P f s1 with
    | ok s2 =>
      have : s2.currentIteration = 0 := by
        rw [← hcur s1 hb]
        unfold boModelInit at hm
        split at hm
        · simp only [Res.ok.injEq] at hm; rw [← hm]
        · cases hcc : P.ops.compute s1.samples s1.observations s1.model with
          | ok m => rw [hcc] at hm; simp only [withModel, Res.bind, Res.ok.injEq] at hm; rw [← hm]
          | throw e m => rw [hcc] at hm; simp [withModel, Res.bind] at hm
          | ub => rw [hcc] at hm; simp [withModel, Res.bind] at hm
          | diverge => rw [hcc] at hm; simp [withModel, Res.bind] at hm
      exact boLoop_terminates hstop hops hhp f afun fuel s2 (by omega)
    | throw e s => simp [Res.andThen, Res.bind]
    | ub => simp [Res.andThen, Res.bind]
    | diverge =>
      unfold boModelInit at hm
      split at hm
      · simp at hm
      · have := hcomp s1.samples s1.observations s1.model
        cases hcc : P.ops.compute s1.samples s1.observations s1.model with
        | diverge => exact absurd hcc this
        | ok m => rw [hcc] at hm; simp [withModel, Res.bind] at hm
        | throw e m => rw [hcc] at hm; simp [withModel, Res.bind] at hm
        | ub => rw [hcc] at hm; simp [withModel, Res.bind] at hm
  | throw e s => simp [Res.andThen, Res.bind]
  | ub => simp [Res.andThen, Res.bind]
  | diverge =>
    rw [boInit_eq] at hb
    split at hb
    · split at hb
      · exact absurd hb (hall _ _)
      · simp at hb
    · simp at hb

-- the second call of the example: no initialiser... and a run that returns normally with 2 + 3 evaluations
example : (match optimize exP { exF with call := fun _ x => .ret x } firstElem true 10 (newBo exP 0 []) with
    | .ok st => decide ((callPts st.trace).length = 5 ∧ st.currentIteration = 3 ∧ st.totalIterations = 3)
    | _ => false) = true := by decide +kernel

/-! ## C05 reset and resume -/

/-- Whatever way the call ends: with `reset` the data is exactly what was stored during this call; without, the old data is kept as
a prefix and what was stored during this call is appended. -/
theorem C05_reset_or_resume (P : BoParams α M) (c : Int) (m : M) (ops : List (BoOp α M)) (st st' : BoState α M)
    (h : runOps P ops (newBo P c m) = some st) (f : StateFun α M) (afun : List α → α) (reset : Bool) (fuel : Nat)
    (ho : optimize P f afun reset fuel st = .ok st' ∨ ∃ e, optimize P f afun reset fuel st = .throw e st') :
    ∃ seg, st'.trace = st.trace ++ .start reset :: seg ∧
      st'.samples.zip st'.observations = (if reset then [] else st.samples.zip st.observations) ++ expect seg ∧
      (reset = false → st.samples <+: st'.samples ∧ st.observations <+: st'.observations) := by
  have hI := runOps_inv (I := DataInv) (fun op st h => runOp_inv P op st h) ops _ st (newBo_inv P c m) h
  have h1 := optimize_inv P f afun reset fuel st hI
  have h2 := optimize_grows (fun _ => True) P f afun reset fuel (fun _ _ _ _ _ => trivial) (fun _ _ _ _ => trivial) st
  have h3 : DataInv st' ∧ Grows (fun _ => True) (st.push (.start reset)) st' := by
    rcases ho with ho | ⟨e, ho⟩ <;> (rw [ho] at h1 h2; exact ⟨h1, h2⟩)
  obtain ⟨hd, seg, hs, hin⟩ := h3
  have hz : st'.samples.zip st'.observations = (if reset then [] else st.samples.zip st.observations) ++ expect seg := by
    rw [hd.zip, hs]
    simp only [BoState.push, expect]
    rw [expectFrom_append, expectFrom_append, expectFrom_inner seg hin, hI.zip]
    cases reset <;> rfl
  refine ⟨seg, by rw [hs]; simp [BoState.push], hz, ?_⟩
  rintro rfl
  simp only [Bool.false_eq_true, if_false] at hz
  have e1 := congrArg (List.map Prod.fst) hz
  have e2 := congrArg (List.map Prod.snd) hz
  rw [List.map_append, List.map_fst_zip hd.len.le, List.map_fst_zip hI.len.le] at e1
  rw [List.map_append, List.map_snd_zip hd.len.ge, List.map_snd_zip hI.len.ge] at e2
  exact ⟨⟨_, e1.symm⟩, ⟨_, e2.symm⟩⟩

/-- The initialiser's points are evaluated first, in order, if `reset` or `total_iterations = 0`; otherwise the initialiser does not run at
all.  All later evaluations come from the inner optimizer, one per iteration. -/
theorem C05_initialiser_runs (P : BoParams α M) (f : StateFun α M) (afun : List α → α) (reset : Bool) (fuel : Nat) (st st' : BoState α M)
    (h : optimize P f afun reset fuel st = .ok st') :
    ∃ pts seg0 seg, st'.trace = st.trace ++ .start reset :: seg0 ++ seg ∧
      (if reset = true ∨ st.totalIterations = 0 then (∃ s, P.initPts s f.dimIn = some pts) else pts = []) ∧
      callPts seg0 = pts ∧ acquiCount seg0 = 0 ∧ (callPts seg).length = acquiCount seg ∧
      st'.samples = (if reset then [] else st.samples) ++ pts ++ callPts seg := by
  obtain ⟨pts, vs0, m0, n, -, hp, hlen, -, -, hl⟩ := optimize_ok h
  obtain ⟨seg, xs, vs, hs⟩ := hl.sum
  have htr : (initState reset st).trace = st.trace ++ [.start reset] := by cases reset <;> rfl
  have hsa : (initState reset st).samples = if reset then [] else st.samples := by cases reset <;> rfl
  obtain ⟨r1, -, r3, -⟩ := retEvents_spec (M := M) pts vs0 hlen.symm
  refine ⟨pts, retEvents pts vs0, seg, by rw [hs.trace]; simp [htr], ?_, r1, r3, by rw [hs.pts, hs.xlen, hs.acq], ?_⟩
  · by_cases hr : runsInit reset st
    · rw [if_pos hr] at hp ⊢; exact ⟨_, hp⟩
    · rw [if_neg hr] at hp ⊢; exact hp
  · rw [hs.samples, hs.pts]; simp [hsa]

/-- With `NoInit` the objective is called exactly once per iteration and never before the first one. -/
theorem C11_no_init (P : BoParams α M) (hP : P.initPts = fun _ _ => some noInit) (f : StateFun α M) (afun : List α → α) (reset : Bool)
    (fuel : Nat) (st st' : BoState α M) (h : optimize P f afun reset fuel st = .ok st') :
    ∃ seg, st'.trace = st.trace ++ .start reset :: seg ∧ (callPts seg).length = acquiCount seg ∧
      ∀ pre, pre <+: seg → acquiCount pre = 0 → callPts pre = [] := by
  obtain ⟨pts, vs0, m0, n, -, hp, hlen, -, -, hl⟩ := optimize_ok h
  obtain ⟨seg, xs, vs, hs⟩ := hl.sum
  have htr : (initState reset st).trace = st.trace ++ [.start reset] := by cases reset <;> rfl
  have hpts : pts = [] := by
    by_cases hr : runsInit reset st
    · rw [if_pos hr, hP] at hp; simpa [noInit] using hp.symm
    · rw [if_neg hr] at hp; exact hp
  subst hpts
  obtain rfl : vs0 = [] := List.length_eq_zero_iff.1 hlen
  refine ⟨seg, by rw [hs.trace]; simp [htr, retEvents], by rw [hs.pts, hs.xlen, hs.acq], ?_⟩
  have hask : ∀ (as : List (Event α M)), (∀ e ∈ as, ∃ j a, e = .asked j a) → callPts as = [] := by
    intro as
    induction as with
    | nil => intro _; rfl
    | cons e es ih =>
      intro h
      obtain ⟨j, a, rfl⟩ := h e (by simp)
      exact ih fun e he => h e (by simp [he])
  have hpre : ∀ (as pre : List (Event α M)), (∀ e ∈ as, ∃ j a, e = .asked j a) → pre <+: as → callPts pre = [] := by
    intro as pre h hp
    exact hask pre fun e he => h e (hp.subset he)
  have key : ∃ as tl, seg = as ++ tl ∧ (∀ e ∈ as, ∃ j a, e = .asked j a) ∧ (tl = [] ∨ ∃ m c t, tl = .acqui m c :: t) := by
    have htr' := hs.trace
    cases hl with
    | done hst =>
      obtain ⟨as, rfl, hq⟩ := boStop_spec hst
      refine ⟨as, [], ?_, hq, Or.inl rfl⟩
      simpa using htr'.symm
    | step hst hit hl' =>
      obtain ⟨as, rfl, hq⟩ := boStop_spec hst
      obtain ⟨x, v, m1, m2, logs, -, -, -, -, -, rfl⟩ := boIteration_ok hit
      obtain ⟨seg', xs', vs', hs'⟩ := hl'.sum
      rw [hs'.trace] at htr'
      simp only [List.append_assoc, List.append_cancel_left_eq, List.cons_append] at htr'
      exact ⟨as, _, htr'.symm, hq, Or.inr ⟨_, _, _, rfl⟩⟩
  obtain ⟨as, tl, rfl, hq, htl⟩ := key
  intro pre hp ha
  rcases le_total pre.length as.length with hle | hle
  · exact hpre as pre hq (List.prefix_of_prefix_length_le hp (List.prefix_append as tl) hle)
  · obtain ⟨r, rfl⟩ := List.prefix_of_prefix_length_le (List.prefix_append as tl) hp hle
    rw [List.prefix_append_right_inj] at hp
    rw [callPts_append, hask as hq, List.nil_append]
    rw [acquiCount_append] at ha
    rcases htl with rfl | ⟨m, c, t, rfl⟩
    · rw [List.prefix_nil] at hp; subst hp; rfl
    · cases r with
      | nil => rfl
      | cons e es =>
        obtain ⟨q, hq2⟩ := hp
        simp only [List.cons_append, List.cons.injEq] at hq2
        rw [hq2.1] at ha
        simp [acquiCount] at ha

/-- After a run without iterations `total_iterations` is still 0, so that resuming runs the initialiser a second time. -/
theorem C05_zero_iteration_run_repeats_initialiser :
    ∃ st st' : BoState F64 (List (List F64 × List F64)),
      optimize { exP with stop := [maxIterations 0] } { exF with call := fun _ x => .ret x } firstElem true 10 (newBo exP 0 []) = .ok st ∧
      optimize { exP with stop := [maxIterations 0] } { exF with call := fun _ x => .ret x } firstElem false 10 st = .ok st' ∧
      st.samples.length = 2 ∧ st'.samples.length = 4 := ⟨_, _, rfl, rfl, by decide +kernel, by decide +kernel⟩

/-! ## C06 model synchronisation -/

/-- Whenever an acquisition function is built or hyper-parameters are optimized, the model contains exactly the data stored so far; whenever
statistics are written it lacks exactly the newest pair. -/
theorem C06_model_in_sync (P : BoParams α M) (data : M → List (List α × List α)) (hL : LawfulModel P.ops data) (c : Int) (m : M)
    (ops : List (BoOp α M)) (st : BoState α M) (h : runOps P ops (newBo P c m) = some st) (pre post : List (Event α M)) (mo : M) (it : Int) :
    (st.trace = pre ++ .acqui mo it :: post → data mo = expect pre) ∧
    (st.trace = pre ++ .hp mo :: post → data mo = expect pre) ∧
    (st.trace = pre ++ .stat mo :: post → ∃ newest, expect pre = data mo ++ [newest]) := by
  have hT := (runOps_inv (I := SyncT data) (fun op st h => runOp_sync hL op st h) ops _ st
    ⟨newBo_inv P c m, by intro pre e hp; simp [newBo] at hp⟩ h).tr
  refine ⟨fun he => ?_, fun he => ?_, fun he => ?_⟩
  · exact hT pre (.acqui mo it) ⟨post, by rw [he]; simp⟩
  · exact hT pre (.hp mo) ⟨post, by rw [he]; simp⟩
  · exact hT pre (.stat mo) ⟨post, by rw [he]; simp⟩

/-- When `optimize` returns normally the model contains exactly `samples()`/`observations()`. -/
theorem C06_model_in_sync_on_return (P : BoParams α M) (data : M → List (List α × List α)) (hL : LawfulModel P.ops data) (c : Int) (m : M)
    (ops : List (BoOp α M)) (st st' : BoState α M) (h : runOps P ops (newBo P c m) = some st) (f : StateFun α M) (afun : List α → α)
    (reset : Bool) (fuel : Nat) (ho : optimize P f afun reset fuel st = .ok st') : data st'.model = st'.samples.zip st'.observations := by
  have hT := runOps_inv (I := SyncT data) (fun op st h => runOp_sync hL op st h) ops _ st
    ⟨newBo_inv P c m, by intro pre e hp; simp [newBo] at hp⟩ h
  have := optimize_sync hL f afun reset fuel st hT
  rw [ho] at this
  exact this.model

example : LawfulModel exP.ops id := storeOps_lawful F64
example : (runOps exP (exOps.take 2) (newBo exP 0 [])).map (fun st => (acquiCount st.trace, hpMarks 0 st.trace)) =
    some (5, [4]) := by decide +kernel

/-! ## C07 hyper-parameter optimization period -/

/-- In a call that runs `n` iterations the hyper-parameters are optimized during iterations `p, 2p, ..., ⌊n/p⌋p` (`p = hp_period > 0`): the list gives
for every optimization the number of iterations started before it. -/
theorem C07_hp_period (P : BoParams α M) (p : Nat) (hp : 0 < p) (hP : P.hpPeriod = p) (f : StateFun α M) (afun : List α → α) (reset : Bool)
    (fuel : Nat) (st st' : BoState α M) (h : optimize P f afun reset fuel st = .ok st') :
    ∃ seg n, st'.trace = st.trace ++ .start reset :: seg ∧ st'.currentIteration = (n : Nat) ∧ acquiCount seg = n ∧
      hpMarks 0 seg = (List.range (n / p)).map fun k => (k + 1) * p := by
  obtain ⟨pts, vs0, m0, n, -, -, hlen, -, -, hl⟩ := optimize_ok h
  obtain ⟨seg, xs, vs, hs⟩ := hl.sum
  have hc : (initState reset st).currentIteration = 0 := by cases reset <;> rfl
  have htr : (initState reset st).trace = st.trace ++ [.start reset] := by cases reset <;> rfl
  obtain ⟨-, -, r3, r4⟩ := retEvents_spec (M := M) pts vs0 hlen.symm
  refine ⟨retEvents pts vs0 ++ seg, n, by rw [hs.trace]; simp [htr], by rw [hs.cur]; simp [hc], ?_, ?_⟩
  · rw [acquiCount_append, r3, hs.acq]; omega
  · rw [hpMarks_append, r4, r3]
    have := hs.hp 0 (by simp [hc])
    simp only [Nat.zero_add, List.nil_append, Nat.add_zero] at this ⊢
    rw [this, ← filter_multiples p hp n]
    apply List.filter_congr
    intro k hk
    rw [decide_eq_decide]
    have e : ((k : Int) - 1 + 1) = ((k : Nat) : Int) := by omega
    simp only [hpDue, hP, e]
    rw [Int.tmod_eq_emod_of_nonneg (by omega), ← Int.natCast_mod]
    constructor
    · rintro ⟨-, h⟩; exact_mod_cast h
    · intro h; exact ⟨by exact_mod_cast hp, by exact_mod_cast h⟩

/-- With `hp_period <= 0` the hyper-parameters are never optimized. -/
theorem C07_hp_never (P : BoParams α M) (hP : P.hpPeriod ≤ 0) (f : StateFun α M) (afun : List α → α) (reset : Bool)
    (fuel : Nat) (st st' : BoState α M) (h : optimize P f afun reset fuel st = .ok st') :
    ∃ seg, st'.trace = st.trace ++ .start reset :: seg ∧ ∀ mo, .hp mo ∉ seg := by
  obtain ⟨pts, vs0, m0, n, -, -, hlen, -, -, hl⟩ := optimize_ok h
  obtain ⟨seg, xs, vs, hs⟩ := hl.sum
  have hc : (initState reset st).currentIteration = 0 := by cases reset <;> rfl
  have htr : (initState reset st).trace = st.trace ++ [.start reset] := by cases reset <;> rfl
  obtain ⟨-, -, r3, r4⟩ := retEvents_spec (M := M) pts vs0 hlen.symm
  refine ⟨retEvents pts vs0 ++ seg, by rw [hs.trace]; simp [htr], ?_⟩
  have hm : hpMarks 0 (retEvents pts vs0 ++ seg) = [] := by
    rw [hpMarks_append, r4, r3]
    have := hs.hp 0 (by simp [hc])
    simp only [Nat.zero_add, List.nil_append, Nat.add_zero] at this ⊢
    rw [this, List.filter_eq_nil_iff]
    intro k _
    simp only [hpDue, decide_eq_true_eq]
    omega
  intro mo hmem
  have key : ∀ (l : List (Event α M)) (c : Nat), .hp mo ∈ l → hpMarks c l ≠ [] := by
    intro l
    induction l with
    | nil => intro c h; simp at h
    | cons e es ih =>
      intro c h
      rcases List.mem_cons.1 h with h1 | h1
      · subst h1; simp [hpMarks]
      · cases e <;> simp only [hpMarks] <;> first | exact ih _ h1 | exact List.cons_ne_nil _ _
  exact key _ 0 hmem hm

example : (match optimize { exP with stop := [maxIterations 7] } { exF with call := fun _ x => .ret x } firstElem true 10 (newBo exP 0 []) with
    | .ok st => decide (hpMarks 0 st.trace = [2, 4, 6])
    | _ => false) = true := by decide +kernel

/-! ## C08 stopping criteria -/

/-- The criteria are consulted in order up to and including the first that says stop; the loop stops iff one of them does. -/
theorem C08_criteria_short_circuit (P : BoParams α M) (afun : List α → α) (st st' : BoState α M) (b : Bool)
    (h : boStop P afun st = some (b, st')) :
    ∃ answers : List Bool,
      st'.trace = st.trace ++ answers.mapIdx (fun k a => .asked k a) ∧
      (∀ (k : Nat) a, answers[k]? = some a → ∃ c, P.stop[k]? = some c ∧ c st afun = some a) ∧
      (b = true → ∃ pre, answers = pre ++ [true] ∧ ∀ a ∈ pre, a = false) ∧
      (b = false → answers.length = P.stop.length ∧ ∀ a ∈ answers, a = false) := by
  have stay : ∀ (cs : List (Criterion α M)) k tr, chainCriteria st afun cs k true tr = some (true, tr) := by
    intro cs
    induction cs with
    | nil => intro k tr; rfl
    | cons c cs ih => intro k tr; simp only [chainCriteria, if_true]; exact ih _ _
  have key : ∀ (cs : List (Criterion α M)) (k0 : Nat) (tr : List (Event α M)) r, chainCriteria st afun cs k0 false tr = some r →
      ∃ answers : List Bool, r.2 = tr ++ answers.mapIdx (fun k a => .asked (k0 + k) a) ∧
        (∀ (k : Nat) a, answers[k]? = some a → ∃ c, cs[k]? = some c ∧ c st afun = some a) ∧
        (r.1 = true → ∃ pre, answers = pre ++ [true] ∧ ∀ a ∈ pre, a = false) ∧
        (r.1 = false → answers.length = cs.length ∧ ∀ a ∈ answers, a = false) := by
    intro cs
    induction cs with
    | nil =>
      intro k0 tr r h
      simp only [chainCriteria, Option.some.injEq] at h
      subst h
      exact ⟨[], by simp, by simp, by simp, by simp⟩
    | cons c cs ih =>
      intro k0 tr r h
      simp only [chainCriteria, Bool.false_eq_true, if_false] at h
      cases hc : c st afun with
      | none => rw [hc] at h; simp at h
      | some a =>
        rw [hc] at h
        simp only at h
        cases a with
        | true =>
          rw [stay] at h
          simp only [Option.some.injEq] at h
          subst h
          refine ⟨[true], by simp, ?_, fun _ => ⟨[], rfl, by simp⟩, by simp⟩
          intro k a hk
          cases k with
          | zero => simp only [List.getElem?_cons_zero, Option.some.injEq] at hk; subst hk; exact ⟨c, rfl, hc⟩
          | succ k => simp at hk
        | false =>
          obtain ⟨as, h1, h2, h3, h4⟩ := ih _ _ _ h
          refine ⟨false :: as, ?_, ?_, ?_, ?_⟩
          · rw [h1, List.mapIdx_cons]
            simp only [List.append_assoc, List.cons_append, List.nil_append, Nat.add_zero]
            congr 2
            apply List.mapIdx_eq_mapIdx_iff.2
            intro i _
            rw [show k0 + 1 + i = k0 + (i + 1) by omega]
          · intro k a hk
            cases k with
            | zero => simp only [List.getElem?_cons_zero, Option.some.injEq] at hk; subst hk; exact ⟨c, rfl, hc⟩
            | succ k => simpa using h2 k a (by simpa using hk)
          · intro hb
            obtain ⟨pre, hp, hf⟩ := h3 hb
            exact ⟨false :: pre, by simp [hp], by intro a ha; rcases List.mem_cons.1 ha with rfl | ha; rfl; exact hf a ha⟩
          · intro hb
            obtain ⟨hp, hf⟩ := h4 hb
            exact ⟨by simp [hp], by intro a ha; rcases List.mem_cons.1 ha with rfl | ha; rfl; exact hf a ha⟩
  unfold boStop at h
  cases hch : chainCriteria st afun P.stop 0 false st.trace with
  | none => rw [hch] at h; simp at h
  | some r =>
    rw [hch] at h
    simp only [Option.some.injEq, Prod.mk.injEq] at h
    obtain ⟨as, h1, h2, h3, h4⟩ := key _ _ _ _ hch
    refine ⟨as, ?_, h2, fun hb => h3 (h.1.trans hb), fun hb => h4 (h.1.trans hb)⟩
    rw [← h.2]; simp only [h1, Nat.zero_add]

/-- If all criteria are defined, the loop stops iff at least one of them says stop. -/
theorem C08_stops_iff_some_criterion (P : BoParams α M) (afun : List α → α) (st st' : BoState α M) (b : Bool)
    (h : boStop P afun st = some (b, st')) : b = true ↔ ∃ c ∈ P.stop, c st afun = some true := by
  obtain ⟨as, -, h2, h3, h4⟩ := C08_criteria_short_circuit P afun st st' b h
  constructor
  · intro hb
    obtain ⟨pre, rfl, -⟩ := h3 hb
    obtain ⟨c, hc, hs⟩ := h2 pre.length true (by simp)
    exact ⟨c, List.mem_of_getElem? hc, hs⟩
  · rintro ⟨c, hc, hs⟩
    cases b with
    | true => rfl
    | false =>
      obtain ⟨hl, hf⟩ := h4 rfl
      obtain ⟨k, hk⟩ := List.getElem?_of_mem hc
      have hkl : k < as.length := by
        rw [hl]
        rcases Nat.lt_or_ge k P.stop.length with h | h
        · exact h
        · rw [List.getElem?_eq_none h] at hk; simp at hk
      obtain ⟨c', hc', hs'⟩ := h2 k as[k] (List.getElem?_eq_getElem hkl)
      rw [hk] at hc'
      simp only [Option.some.injEq] at hc'
      rw [← hc', hs] at hs'
      simp only [Option.some.injEq] at hs'
      have := hf as[k] (List.getElem_mem hkl)
      rw [← hs'] at this; exact this.symm

/-- `optimize` returns normally only after a criterion said stop about the final data, and every iteration was preceded by a round in which all
criteria said "continue". -/
theorem C08_optimize_ends_with_stop (P : BoParams α M) (f : StateFun α M) (afun : List α → α) (reset : Bool) (fuel : Nat)
    (st st' : BoState α M) (h : optimize P f afun reset fuel st = .ok st') :
    ∃ s, boStop P afun s = some (true, st') ∧ s.samples = st'.samples ∧ s.observations = st'.observations ∧
      s.currentIteration = st'.currentIteration ∧ s.totalIterations = st'.totalIterations := by
  obtain ⟨pts, vs0, m0, n, -, -, -, -, -, hl⟩ := optimize_ok h
  have key : ∀ (n : Nat) (a b : BoState α M), Loops P f afun n a b → ∃ s, boStop P afun s = some (true, b) ∧ s.samples = b.samples ∧
      s.observations = b.observations ∧ s.currentIteration = b.currentIteration ∧ s.totalIterations = b.totalIterations := by
    intro n a b hl
    induction hl with
    | done hs =>
      refine ⟨_, hs, ?_⟩
      obtain ⟨as, rfl, -⟩ := boStop_spec hs
      exact ⟨rfl, rfl, rfl, rfl⟩
    | step _ _ _ ih => exact ih
  exact key _ _ _ hl

/-- `MaxIterations`. -/
theorem C08_max_iterations (N : Int) (st : BoState α M) (afun : List α → α) :
    maxIterations N st afun = some true ↔ N ≤ st.currentIteration := by simp [maxIterations]

/-- `MaxPredictedValue` never stops without observations; otherwise, with `x` the point found by its optimizer on the aggregated model mean and
`v` the best observation, it stops iff NOT `afun(v) <= ratio * afun(mu(x))`, i.e. iff the best exceeds the threshold when neither is
NaN; in particular a NaN prediction stops the run. -/
theorem C08_max_predicted_value [LawfulCmp α] (mu : M → List α → List α) (opt : BoState α M → Optz α) (start : BoState α M → List α)
    (ratio : α) (st : BoState α M) (afun : List α → α) :
    (st.observations = [] → maxPredictedValue mu opt start ratio st afun = some false) ∧
    (∀ x v, st.observations ≠ [] → opt st (fun x _ => (afun (mu st.model x), none)) (start st) true = some x →
      bestObservation afun st = some v →
      (isNaN (afun v) = false → isNaN (ratio * afun (mu st.model x)) = false →
        (maxPredictedValue mu opt start ratio st afun = some true ↔ lt (ratio * afun (mu st.model x)) (afun v) = true)) ∧
      ((isNaN (afun v) = true ∨ isNaN (ratio * afun (mu st.model x)) = true) →
        maxPredictedValue mu opt start ratio st afun = some true)) := by
  constructor
  · intro h; simp [maxPredictedValue, h]
  · intro x v hne hx hv
    have hlen : st.observations.length ≠ 0 := by simpa using hne
    have e : maxPredictedValue mu opt start ratio st afun = some (!(le (afun v) (ratio * afun (mu st.model x)))) := by
      simp only [maxPredictedValue, if_neg hlen, hx, hv]
      cases le (afun v) (ratio * afun (mu st.model x)) <;> rfl
    rw [e]
    constructor
    · intro h1 h2
      rw [lt_eq _ _ h2 h1]
      simp
    · rintro (h | h)
      · rw [nan_le_left _ _ h]; rfl
      · rw [nan_le_right _ _ h]; rfl

example : (maxPredictedValue (fun _ x => x) (fun _ _ x _ => some x) (fun _ => [F64.of 2]) (F64.of (1/2))
    { newBo exP 0 [] with observations := [[F64.of 3]], samples := [[F64.of 0]] } firstElem,
   maxPredictedValue (fun _ x => x) (fun _ _ x _ => some x) (fun _ => [F64.of 8]) (F64.of (1/2))
    { newBo exP 0 [] with observations := [[F64.of 3]], samples := [[F64.of 0]] } firstElem) = (some true, some false) := by decide +kernel
example : (boStop { exP with stop := [maxIterations 5, maxIterations 0, maxIterations 9] } firstElem (newBo exP 3 [])).map
    (fun r => (r.1, r.2.trace.length)) = some (true, 2) := by decide +kernel

/-! ## C09 bounded mode -/

/-- If the initialiser and the inner optimizer (in the mode requested, started from the random vector) only produce points of `[0,1]^d`, then
`optimize` calls the objective only on points of `[0,1]^d` - however it ends. -/
theorem C09_objective_called_in_unit_box (P : BoParams α M) (f : StateFun α M) (afun : List α → α) (reset : Bool) (fuel : Nat)
    (hinit : ∀ (st : BoState α M) pts, P.initPts st f.dimIn = some pts → ∀ x ∈ pts, InUnitBox f.dimIn x)
    (hopt : ∀ (st : BoState α M) g x, P.acquiOpt st g (P.startPt st f.dimIn) P.bounded = .point x → InUnitBox f.dimIn x)
    (st st' : BoState α M)
    (ho : optimize P f afun reset fuel st = .ok st' ∨ ∃ e, optimize P f afun reset fuel st = .throw e st') :
    ∃ seg, st'.trace = st.trace ++ .start reset :: seg ∧ ∀ x ∈ callPts seg, InUnitBox f.dimIn x := by
  have h2 := optimize_grows (InUnitBox f.dimIn) P f afun reset fuel hinit hopt st
  have h3 : Grows (InUnitBox f.dimIn) (st.push (.start reset)) st' := by
    rcases ho with ho | ⟨e, ho⟩ <;> (rw [ho] at h2; exact h2)
  obtain ⟨seg, hs, hin⟩ := h3
  refine ⟨seg, by rw [hs]; simp [BoState.push], ?_⟩
  clear hs
  induction seg with
  | nil => simp [callPts]
  | cons e es ih =>
    have ih' := ih fun e he => hin e (by simp [he])
    have he := hin e (by simp)
    cases e <;> simp only [callPts] <;> try exact ih'
    intro x hx
    rcases List.mem_cons.1 hx with rfl | hx
    · exact he
    · exact ih' x hx

end

/-- Instance: `RandomSampling` + `Rprop` in bounded mode, any arithmetic obeying the IEEE laws. -/
theorem C09_random_sampling_rprop [ScalarFn α] [LawfulArith α] (P : BoParams α M) (f : StateFun α M) (afun : List α → α) (reset : Bool)
    (fuel : Nat) (uniform gauss ustart gstart : BoState α M → Nat → α) (samples iterations : Int) (eps : α)
    (hu : ∀ s i, le (lit 0) (uniform s i) = true ∧ le (uniform s i) (lit 1) = true)
    (hs : ∀ s i, le (lit 0) (ustart s i) = true ∧ le (ustart s i) (lit 1) = true)
    (hb : P.bounded = true)
    (hinit : P.initPts = fun s d => some (randomSampling (uniform s) (gauss s) samples d P.bounded))
    (hstart : P.startPt = fun s d => randomVector (ustart s) (gstart s) d P.bounded)
    (hopt : P.acquiOpt = fun _ => Optz.toRes (rprop iterations eps))
    (st st' : BoState α M)
    (ho : optimize P f afun reset fuel st = .ok st' ∨ ∃ e, optimize P f afun reset fuel st = .throw e st') :
    ∃ seg, st'.trace = st.trace ++ .start reset :: seg ∧ ∀ x ∈ callPts seg, InUnitBox f.dimIn x := by
  refine C09_objective_called_in_unit_box P f afun reset fuel ?_ ?_ st st' ho
  · intro s pts hp x hx
    rw [hinit] at hp
    simp only [Option.some.injEq] at hp
    rw [← hp, hb] at hx
    exact (C11_random_sampling (uniform s) (gauss s) samples f.dimIn true (hu s)).2.2 rfl x hx
  · intro s g x hx
    rw [hopt, hstart, hb] at hx
    have hv : ∀ y ∈ randomVector (ustart s) (gstart s) f.dimIn true, isNaN y = false := by
      intro y hy
      simp only [randomVector, if_true, randomVec, List.mem_map] at hy
      obtain ⟨j, -, rfl⟩ := hy
      exact (not_nan_of_le (hs s j).1).2
    have hl : (randomVector (ustart s) (gstart s) f.dimIn true).length = f.dimIn := by simp [randomVector, randomVec]
    simp only [Optz.toRes, rprop] at hx
    split at hx
    · next y hy =>
      simp only [OptRes.point.injEq] at hx
      subst hx
      rw [Option.map_eq_some_iff] at hy
      obtain ⟨s', hr, rfl⟩ := hy
      have := (C15_rprop_in_bounds g _ hv iterations eps s' hr).2
      rwa [hl] at this
    · simp at hx

section
variable [Scalar α]

/-- A configuration meeting the premises (constant generators). -/
def exRprop : BoParams F64 (List (List F64 × List F64)) :=
  { exP with
    initPts := fun _ d => some (randomSampling (fun _ => F64.of (1/4)) (fun _ => F64.of 30) 2 d true)
    startPt := fun _ d => randomVector (fun _ => F64.of (3/4)) (fun _ => F64.of 30) d true
    acqui := fun _ _ _ => fun x g => (firstElem x, if g then some [F64.of 1, F64.of 0] else none)
    acquiOpt := fun _ => Optz.toRes (rprop 3 (F64.of 0)) }

example : (match optimize exRprop { exF with call := fun _ x => .ret x } firstElem true 10 (newBo exRprop 0 []) with
    | .ok st => decide ((callPts st.trace).length = 5)
    | _ => false) = true := by decide +kernel

/-- With `GridSearch` (the library's fallback inner optimizer) the claim is FALSE in binary64: bounded mode, 10 bins, acquisition `x`; the
objective is called at 1.0999999999999999. -/
theorem C09_grid_search_leaves_unit_box :
    ∃ (P : BoParams F64 (List (List F64 × List F64))) (f : StateFun F64 (List (List F64 × List F64))) (st' : BoState F64 (List (List F64 × List F64))),
      P.bounded = true ∧ P.acquiOpt = (fun _ => Optz.toRes (gridSearch 10 20)) ∧
      optimize P f firstElem true 10 (newBo P 0 []) = .ok st' ∧
      ∃ x ∈ callPts st'.trace, ∃ y ∈ x, lt (lit 1) y = true := by
  let P : BoParams F64 (List (List F64 × List F64)) :=
    { exP with acquiOpt := fun _ => Optz.toRes (gridSearch 10 20), stop := [maxIterations 1], acqui := fun _ _ _ => fun x _ => (firstElem x, none) }
  let f : StateFun F64 (List (List F64 × List F64)) := { dimIn := 1, dimOut := 1, call := fun _ x => .ret x }
  have hk : (match optimize P f firstElem true 10 (newBo P 0 []) with
      | .ok st => (callPts st.trace).any (fun x => x.any fun y => lt (lit 1) y)
      | _ => false) = true := by decide +kernel
  cases ho : optimize P f firstElem true 10 (newBo P 0 []) with
  | ok st' =>
    rw [ho] at hk
    simp only [List.any_eq_true] at hk
    obtain ⟨x, hx, y, hy, hlt⟩ := hk
    exact ⟨P, f, st', rfl, rfl, ho, x, hx, y, hy, hlt⟩
  | throw e s => rw [ho] at hk; simp at hk
  | ub => rw [ho] at hk; simp at hk
  | diverge => rw [ho] at hk; simp at hk

/-! ## C10 logs -/

/-- Whatever way the call ends, statistic `k` (one of `Samples`, `Observations`, `AggregatedObservations`) has appended to its log exactly
`expectedLog`: nothing if no evaluation of an iteration was stored; otherwise the header and one `-1` row per pair present before the
first iteration (only if no iteration was completed before), and one row per pair stored by the iterations, tagged with
consecutive numbers. -/
theorem C10_logs (P : BoParams α M) (hen : P.statsEnabled = true) (c : Int) (m : M) (ops : List (BoOp α M)) (st st' : BoState α M)
    (h : runOps P ops (newBo P c m) = some st) (htot : 0 ≤ st.totalIterations) (f : StateFun α M) (afun : List α → α) (reset : Bool)
    (fuel : Nat) (ho : optimize P f afun reset fuel st = .ok st' ∨ ∃ e, optimize P f afun reset fuel st = .throw e st')
    (k : Nat) (p : List α × List α → List α)
    (hk : (P.stats[k]? = some statSamples ∧ p = fun q => q.1) ∨ (P.stats[k]? = some statObservations ∧ p = fun q => q.2) ∨
      (P.stats[k]? = some statAggregated ∧ p = fun q => [afun q.2]))
    (L0 : List (LogLine α)) (hL0 : st.logs[k]? = some L0) :
    ∃ pre it, st'.trace = st.trace ++ pre ++ it ∧ acquiCount pre = 0 ∧ (it = [] ∨ ∃ m c tl, it = .acqui m c :: tl) ∧
      st'.logs[k]? = some (L0 ++ expectedLog (if reset then 0 else st.totalIterations.toNat)
        ((expect (st.trace ++ pre)).map p) ((expect it).map p)) := by
  have hI := runOps_inv (I := DataInv) (fun op st h => runOp_inv P op st h) ops _ st (newBo_inv P c m) h
  have key : ∃ s : Stat α M, P.stats[k]? = some s ∧ ∀ st : BoState α M, st.samples.length = st.observations.length →
      s st afun = some (logAll ((st.samples.zip st.observations).map p) st.totalIterations) := by
    rcases hk with ⟨h1, rfl⟩ | ⟨h1, rfl⟩ | ⟨h1, rfl⟩
    · refine ⟨_, h1, fun st hl => ?_⟩
      have : (st.samples.zip st.observations).map (fun q => q.1) = st.samples := List.map_fst_zip hl.le
      rw [this]; rfl
    · refine ⟨_, h1, fun st hl => ?_⟩
      have : (st.samples.zip st.observations).map (fun q => q.2) = st.observations := List.map_snd_zip hl.ge
      rw [this]; rfl
    · refine ⟨_, h1, fun st hl => ?_⟩
      have : (st.samples.zip st.observations).map (fun q => [afun q.2]) = st.observations.map fun v => [afun v] := by
        have h2 := List.map_snd_zip (l₁ := st.samples) (l₂ := st.observations) hl.ge
        conv_rhs => rw [← h2]
        simp [Function.comp_def]
      rw [this]; rfl
  obtain ⟨s, hs1, hs2⟩ := key
  have hlog := optimize_log (L0 := L0) hen hs1 f reset fuel st (statAll_appends _ hs2) (fun b => rfl) hI htot hL0
  have : ∃ pre it, LogT (fun b n => expectedLog (startTotal reset st) (b.map p) (n.map p)) k L0 (startTotal reset st) st pre it st' := by
    rcases ho with ho | ⟨e, ho⟩
    · rw [ho] at hlog; obtain ⟨a, b, hab⟩ := hlog; exact ⟨a, b, hab.toLogT⟩
    · rw [ho] at hlog; exact hlog
  obtain ⟨pre, it, hT⟩ := this
  exact ⟨pre, it, hT.trace, hT.acq0, hT.shape, hT.log⟩

/-- `total_iterations` is never negative in a reachable state (the premise of `C10_logs`). -/
theorem C10_total_nonneg (P : BoParams α M) (c : Int) (m : M) (ops : List (BoOp α M)) (st : BoState α M)
    (h : runOps P ops (newBo P c m) = some st) : 0 ≤ st.totalIterations := by
  let I : BoState α M → Prop := fun s => 0 ≤ s.totalIterations
  have hev : ∀ (f : StateFun α M) x st, I st → (evalAndAdd f x st).All I I := fun f x st h =>
    (evalAndAdd_frame f x st).mono (fun s hs => by show 0 ≤ _; rw [hs.2.1]; exact h) (fun s hs => by show 0 ≤ _; rw [hs.2.1]; exact h)
  have hall : ∀ (f : StateFun α M) pts st, I st → (evalAll f pts st).All I I := by
    intro f pts
    induction pts with
    | nil => intro st h; exact h
    | cons x xs ih => intro st h; exact (hev f x st h).andThen ih
  have hit : ∀ (f : StateFun α M) afun st, I st → (boIteration P f afun st).All I I := by
    intro f afun st h
    unfold boIteration
    simp only
    split
    · trivial
    · exact h
    · refine (hev f _ _ (show I (st.push _) from h)).andThen fun s1 h1 => ?_
      refine Res.All.andThen (Q := I) (updateStats_all _ _ _ _ _ fun _ _ => h1) fun s2 h2 => ?_
      refine Res.All.andThen (Q := I) (boModelAdd_all _ _ _ _ (fun _ _ _ _ _ _ => h2) (fun _ => h2)) fun s3 h3 => ?_
      refine Res.All.andThen (Q := I) (boHp_all _ _ _ _ (fun _ _ _ => h3) (fun _ => h3) (fun _ => h3)) fun s4 h4 => ?_
      show 0 ≤ s4.totalIterations + 1
      have : 0 ≤ s4.totalIterations := h4
      omega
  have hloop : ∀ (f : StateFun α M) afun fuel st, I st → (boLoop P f afun fuel st).All I I := by
    intro f afun fuel
    induction fuel with
    | zero => intro st h; trivial
    | succ n ih =>
      intro st h
      unfold boLoop
      split
      · trivial
      · next hs => obtain ⟨as, rfl, -⟩ := boStop_spec hs; exact h
      · next hs => obtain ⟨as, rfl, -⟩ := boStop_spec hs; exact Res.All.andThen (hit f afun _ (show I { st with trace := st.trace ++ as } from h)) ih
  refine runOps_inv (I := I) ?_ ops _ st (show (0 : Int) ≤ 0 from by omega) h
  intro op st h
  cases op with
  | optimize f afun reset fuel =>
    have hi : I (initState reset st) := by cases reset; exact h; exact Int.le_refl 0
    show (optimize P f afun reset fuel st).All I I
    unfold optimize
    refine Res.All.andThen (Q := I) ?_ fun s1 h1 => Res.All.andThen (Q := I) ?_ fun s2 h2 => hloop f afun fuel s2 h2
    · rw [boInit_eq]
      split
      · split
        · exact hall f _ _ hi
        · trivial
      · exact hi
    · unfold boModelInit
      split
      · exact h1
      · exact withModel_all _ _ _ _ (fun _ _ => h1) (fun _ => h1)
  | addNewSample s v =>
    show (addNewSample s v _).All I I
    unfold addNewSample
    split
    · exact h
    · exact h
  | evalAndAdd f x => exact hev f x st h

/-- First run of the example (2 initial points, 3 iterations), resumed once: header, two `-1` rows, rows 0, 1, ..., 5. -/
example : (runOps exP [.optimize { exF with call := fun _ x => .ret x } firstElem true 10, .optimize { exF with call := fun _ x => .ret x } firstElem false 10]
    (newBo exP 0 [])).map (fun st => st.logs[2]?) =
    some (some [.header, .row (-1) [F64.of 0], .row (-1) [F64.of 1], .row 0 [F64.of (1/2)], .row 1 [F64.of (1/2)], .row 2 [F64.of (1/2)],
      .row 3 [F64.of (1/2)], .row 4 [F64.of (1/2)], .row 5 [F64.of (1/2)]]) := by decide +kernel

end

end Limbo
