import Verif.Lemmas.Bo
import Mathlib.Tactic.Linarith
import Mathlib.Data.List.Zip

/-! Decomposition of a normally terminating `optimize` call. -/

namespace Limbo

set_option linter.unusedSectionVars false

variable {α M : Type} [Scalar α]

/-- `n` iterations of the loop, ended by a stopping criterion. -/
inductive Loops (P : BoParams α M) (f : StateFun α M) (afun : List α → α) : Nat → BoState α M → BoState α M → Prop
  | done {st st'} : boStop P afun st = some (true, st') → Loops P f afun 0 st st'
  | step {n st s1 s2 st'} : boStop P afun st = some (false, s1) → boIteration P f afun s1 = .ok s2 →
      Loops P f afun n s2 st' → Loops P f afun (n + 1) st st'

theorem boLoop_ok {P : BoParams α M} {f : StateFun α M} {afun : List α → α} : ∀ {fuel : Nat} {st st' : BoState α M},
    boLoop P f afun fuel st = .ok st' → ∃ n, n < fuel ∧ Loops P f afun n st st' := by
  intro fuel
  induction fuel with
  | zero => intro st st' h; simp [boLoop] at h
  | succ k ih =>
    intro st st' h
    unfold boLoop at h
    split at h
    · simp at h
    · next s hs => simp only [Res.ok.injEq] at h; subst h; exact ⟨0, by omega, .done hs⟩
    · next s hs =>
      obtain ⟨s2, h2, h3⟩ := Res.andThen_ok h
      obtain ⟨n, hn, hl⟩ := ih h3
      exact ⟨n + 1, by omega, .step hs h2 hl⟩

theorem callPts_append (a b : List (Event α M)) : callPts (a ++ b) = callPts a ++ callPts b := by
  induction a with
  | nil => rfl
  | cons e es ih => cases e <;> simp [callPts, ih]

theorem callsOf_append (a b : List (Event α M)) : callsOf (a ++ b) = callsOf a ++ callsOf b := by
  induction a with
  | nil => rfl
  | cons e es ih => cases e <;> simp [callsOf, ih]

theorem acquiCount_append (a b : List (Event α M)) : acquiCount (a ++ b) = acquiCount a + acquiCount b := by
  induction a with
  | nil => simp [acquiCount]
  | cons e es ih => cases e <;> simp [acquiCount, ih]; omega

theorem hpMarks_append (a b : List (Event α M)) : ∀ c, hpMarks c (a ++ b) = hpMarks c a ++ hpMarks (c + acquiCount a) b := by
  induction a with
  | nil => intro c; simp [hpMarks, acquiCount]
  | cons e es ih =>
    intro c
    cases e <;> simp [hpMarks, acquiCount, ih]
    rw [show c + 1 + acquiCount es = c + (acquiCount es + 1) by omega]

theorem asked_nothing {as : List (Event α M)} (h : ∀ e ∈ as, ∃ j a, e = .asked j a) :
    callPts as = [] ∧ callsOf as = [] ∧ acquiCount as = 0 ∧ ∀ c, hpMarks c as = [] := by
  induction as with
  | nil => simp [callPts, callsOf, acquiCount, hpMarks]
  | cons e es ih =>
    obtain ⟨j, a, rfl⟩ := h e (by simp)
    have := ih (fun e he => h e (by simp [he]))
    simpa [callPts, callsOf, acquiCount, hpMarks] using this

/-- calls that returned -/
def retCalls (xs vs : List (List α)) : List (List α × CallRes α) := List.zipWith (fun x v => (x, .ret v)) xs vs

theorem retCalls_append (xs xs' vs vs' : List (List α)) (h : xs.length = vs.length) :
    retCalls (xs ++ xs') (vs ++ vs') = retCalls xs vs ++ retCalls xs' vs' := by
  simp only [retCalls]
  exact List.zipWith_append h

/-- What `n` iterations do. -/
structure LoopSum (P : BoParams α M) (n : Nat) (st st' : BoState α M) (seg : List (Event α M)) (xs vs : List (List α)) : Prop where
  trace : st'.trace = st.trace ++ seg
  samples : st'.samples = st.samples ++ xs
  observations : st'.observations = st.observations ++ vs
  xlen : xs.length = n
  vlen : vs.length = n
  vfin : ∀ v ∈ vs, AllFinite v
  calls : callsOf seg = retCalls xs vs
  pts : callPts seg = xs
  acq : acquiCount seg = n
  cur : st'.currentIteration = st.currentIteration + n
  tot : st'.totalIterations = st.totalIterations + n
  hp : ∀ c : Nat, st.currentIteration = c →
    hpMarks c seg = ((List.range n).map fun k => c + k + 1).filter fun k : Nat => decide (hpDue P ((k : Int) - 1))

theorem Loops.sum {P : BoParams α M} {f : StateFun α M} {afun : List α → α} {n : Nat} {st st' : BoState α M}
    (h : Loops P f afun n st st') : ∃ seg xs vs, LoopSum P n st st' seg xs vs := by
  induction h with
  | done hs =>
    obtain ⟨as, rfl, has⟩ := boStop_spec hs
    obtain ⟨h1, h2, h3, h4⟩ := asked_nothing has
    exact ⟨as, [], [], ⟨rfl, by simp, by simp, rfl, rfl, by simp, by simp [h2, retCalls], h1, h3, by simp, by simp,
      by intro c _; simp [h4]⟩⟩
  | @step n st s1 s2 st' hs hi hl ih =>
    obtain ⟨as, rfl, has⟩ := boStop_spec hs
    obtain ⟨a1, a2, a3, a4⟩ := asked_nothing has
    obtain ⟨x, v, m1, m2, logs, -, hfin, -, -, -, rfl⟩ := boIteration_ok hi
    obtain ⟨seg, xs, vs, ih⟩ := ih
    have hseg : st'.trace = st.trace ++ (as ++ ([.acqui st.model st.currentIteration, .call x (.ret v), .stat st.model] ++
                (if hpDue P st.currentIteration then [.hp m1] else [])) ++ seg) := by
      rw [ih.trace]; simp [List.append_assoc]
    refine ⟨_, x :: xs, v :: vs, ⟨hseg, by rw [ih.samples]; simp, by rw [ih.observations]; simp, by simp [ih.xlen], by simp [ih.vlen],
      ?_, ?_, ?_, ?_, ?_, ?_, ?_⟩⟩
    · intro w hw
      rcases List.mem_cons.1 hw with rfl | hw
      · exact hfin
      · exact ih.vfin w hw
    · rw [callsOf_append, callsOf_append, a2, ih.calls]
      split <;> simp [callsOf, retCalls]
    · rw [callPts_append, callPts_append, a1, ih.pts]
      split <;> simp [callPts]
    · rw [acquiCount_append, acquiCount_append, a3, ih.acq]
      split <;> simp [acquiCount] <;> omega
    · rw [ih.cur]; push_cast; omega
    · rw [ih.tot]; push_cast; omega
    · intro c hc
      rw [hpMarks_append, hpMarks_append, a4, acquiCount_append, a3]
      have h2 := ih.hp (c + 1) (by simp only; rw [hc]; push_cast; rfl)
      rw [List.range_succ_eq_map]
      simp only [List.map_cons, List.map_map, Nat.add_zero, List.filter_cons, Function.comp_def]
      have hshift : (List.map (fun k => c + k.succ + 1) (List.range n)) = (List.range n).map fun k => c + 1 + k + 1 := by
        apply List.map_congr_left; intro k _; omega
      rw [hshift, ← h2]
      have e1 : (((c + 1 : Nat) : Int) - 1) = st.currentIteration := by rw [hc]; push_cast; omega
      rw [e1]
      by_cases hd : hpDue P st.currentIteration
      · rw [if_pos hd]
        rw [if_pos (decide_eq_true hd)]
        simp [hpMarks, acquiCount]
      · rw [if_neg hd]
        rw [if_neg (by rw [decide_eq_true_eq]; exact hd)]
        simp [hpMarks, acquiCount]

/-- events of returned calls -/
def retEvents (xs vs : List (List α)) : List (Event α M) := List.zipWith (fun x v => .call x (.ret v)) xs vs

theorem retEvents_spec (xs : List (List α)) : ∀ vs : List (List α), xs.length = vs.length →
    callPts (retEvents xs vs : List (Event α M)) = xs ∧ callsOf (retEvents xs vs : List (Event α M)) = retCalls xs vs ∧
    acquiCount (retEvents xs vs : List (Event α M)) = 0 ∧ ∀ c, hpMarks c (retEvents xs vs : List (Event α M)) = [] := by
  induction xs with
  | nil => intro vs h; simp [retEvents, callPts, callsOf, acquiCount, hpMarks, retCalls]
  | cons x xs ih =>
    intro vs h
    cases vs with
    | nil => simp at h
    | cons v vs =>
      obtain ⟨h1, h2, h3, h4⟩ := ih vs (by simpa using h)
      simp only [retEvents, retCalls] at *
      simp [callPts, callsOf, acquiCount, hpMarks, h1, h2, h3, h4]

theorem evalAll_ok {f : StateFun α M} : ∀ {pts : List (List α)} {st st' : BoState α M}, evalAll f pts st = .ok st' →
    ∃ vs, vs.length = pts.length ∧ (∀ v ∈ vs, AllFinite v) ∧
      st' = { st with samples := st.samples ++ pts, observations := st.observations ++ vs, trace := st.trace ++ retEvents pts vs } := by
  intro pts
  induction pts with
  | nil => intro st st' h; simp only [evalAll, Res.ok.injEq] at h; exact ⟨[], rfl, by simp, by simp [retEvents, h]⟩
  | cons x xs ih =>
    intro st st' h
    obtain ⟨s1, h1, h2⟩ := Res.andThen_ok h
    obtain ⟨v, -, hfin, rfl⟩ := evalAndAdd_ok h1
    obtain ⟨vs, hlen, hf, rfl⟩ := ih h2
    refine ⟨v :: vs, by simp [hlen], ?_, ?_⟩
    · intro w hw
      rcases List.mem_cons.1 hw with rfl | hw
      · exact hfin
      · exact hf w hw
    · simp [retEvents]

/-- The state on which the initialiser is run. -/
def initState (reset : Bool) (st : BoState α M) : BoState α M :=
  if reset then { st.push (.start reset) with currentIteration := 0, totalIterations := 0, samples := [], observations := [] }
  else { st.push (.start reset) with currentIteration := 0 }

/-- Does this call run the initialiser? -/
abbrev runsInit (reset : Bool) (st : BoState α M) : Prop := reset = true ∨ st.totalIterations = 0

theorem initState_total (reset : Bool) (st : BoState α M) : (initState reset st).totalIterations = 0 ↔ runsInit reset st := by
  cases reset <;> simp [initState, runsInit, BoState.push]

theorem boInit_eq (P : BoParams α M) (f : StateFun α M) (reset : Bool) (st : BoState α M) :
    boInit P f reset (st.push (.start reset)) =
      if runsInit reset st then
        (match P.initPts (initState reset st) f.dimIn with | some pts => evalAll f pts (initState reset st) | none => .ub)
      else .ok (initState reset st) := by
  by_cases h : runsInit reset st
  · rw [if_pos h]
    have h' := (initState_total reset st).2 h
    cases reset
    · simp only [boInit, initState, Bool.false_eq_true, if_false] at h' ⊢
      rw [if_pos h']
      rfl
    · simp only [boInit, initState, if_true]
      rfl
  · rw [if_neg h]
    have h' := (not_congr (initState_total reset st)).2 h
    cases reset
    · simp only [boInit, initState, Bool.false_eq_true, if_false] at h' ⊢
      rw [if_neg h']
    · exact absurd (Or.inl rfl) h

/-- What a normally terminating `optimize` does. -/
theorem optimize_ok {P : BoParams α M} {f : StateFun α M} {afun : List α → α} {reset : Bool} {fuel : Nat} {st st' : BoState α M}
    (h : optimize P f afun reset fuel st = .ok st') :
    ∃ pts vs0 m0 n, n < fuel ∧
      (if runsInit reset st then P.initPts (initState reset st) f.dimIn = some pts else pts = []) ∧
      vs0.length = pts.length ∧ (∀ v ∈ vs0, AllFinite v) ∧
      (if ((initState reset st).observations ++ vs0).isEmpty then m0 = P.ops.fresh f.dimIn f.dimOut
        else P.ops.compute ((initState reset st).samples ++ pts) ((initState reset st).observations ++ vs0) st.model = .ok m0) ∧
      Loops P f afun n { initState reset st with samples := (initState reset st).samples ++ pts, observations := (initState reset st).observations ++ vs0, trace := (initState reset st).trace ++ retEvents pts vs0, model := m0 } st' := by
  unfold optimize at h
  simp only at h
  obtain ⟨s1, h1, h⟩ := Res.andThen_ok h
  obtain ⟨s2, h2, h3⟩ := Res.andThen_ok h
  obtain ⟨n, hn, hl⟩ := boLoop_ok h3
  rw [boInit_eq] at h1
  have hs1 : ∃ pts vs0, (if runsInit reset st then P.initPts (initState reset st) f.dimIn = some pts else pts = []) ∧
      vs0.length = pts.length ∧ (∀ v ∈ vs0, AllFinite v) ∧
      s1 = { initState reset st with samples := (initState reset st).samples ++ pts, observations := (initState reset st).observations ++ vs0, trace := (initState reset st).trace ++ retEvents pts vs0 } := by
    by_cases hr : runsInit reset st
    · rw [if_pos hr] at h1
      split at h1
      · next pts hp =>
        obtain ⟨vs, hlen, hfin, rfl⟩ := evalAll_ok h1
        exact ⟨pts, vs, by rw [if_pos hr]; exact hp, hlen, hfin, rfl⟩
      · simp at h1
    · rw [if_neg hr] at h1
      simp only [Res.ok.injEq] at h1
      exact ⟨[], [], by rw [if_neg hr], rfl, by simp, by rw [← h1]; simp [retEvents]⟩
  obtain ⟨pts, vs0, hp, hlen, hfin, rfl⟩ := hs1
  have hm : ({ initState reset st with samples := (initState reset st).samples ++ pts, observations := (initState reset st).observations ++ vs0, trace := (initState reset st).trace ++ retEvents pts vs0 } : BoState α M).model = st.model := by
    cases reset <;> rfl
  unfold boModelInit at h2
  simp only at h2
  by_cases he : ((initState reset st).observations ++ vs0).isEmpty = true
  · rw [if_pos he] at h2
    simp only [Res.ok.injEq] at h2
    refine ⟨pts, vs0, P.ops.fresh f.dimIn f.dimOut, n, hn, hp, hlen, hfin, by rw [if_pos he], ?_⟩
    rw [h2]; exact hl
  · rw [if_neg he] at h2
    cases hc : P.ops.compute ((initState reset st).samples ++ pts) ((initState reset st).observations ++ vs0) (initState reset st).model with
    | ok m0 =>
      rw [hc] at h2
      simp only [withModel, Res.bind, Res.ok.injEq] at h2
      simp only at hm
      rw [hm] at hc
      refine ⟨pts, vs0, m0, n, hn, hp, hlen, hfin, by rw [if_neg he]; exact hc, ?_⟩
      rw [h2]; exact hl
    | throw e m => rw [hc] at h2; simp [withModel, Res.bind] at h2
    | ub => rw [hc] at h2; simp [withModel, Res.bind] at h2
    | diverge => rw [hc] at h2; simp [withModel, Res.bind] at h2

/-! ## Multiples -/

theorem filter_multiples (h : Nat) (hh : 0 < h) (n : Nat) :
    ((List.range n).map fun k => k + 1).filter (fun k => decide (k % h = 0)) = (List.range (n / h)).map fun k => (k + 1) * h := by
  induction n with
  | zero => simp
  | succ n ih =>
    rw [List.range_succ, List.map_append, List.filter_append, ih]
    simp only [List.map_cons, List.map_nil]
    by_cases hd : (n + 1) % h = 0
    · have : (n + 1) / h = n / h + 1 := Nat.succ_div_of_dvd (Nat.dvd_of_mod_eq_zero hd)
      rw [this, List.range_succ, List.map_append]
      simp only [List.filter_cons, hd, decide_true, if_true, List.filter_nil, List.map_cons, List.map_nil]
      congr 2
      rw [← this]
      exact (Nat.div_mul_cancel (Nat.dvd_of_mod_eq_zero hd)).symm
    · have : (n + 1) / h = n / h := Nat.succ_div_of_not_dvd (fun hc => hd (Nat.mod_eq_zero_of_dvd hc))
      rw [this]
      simp [hd]

/-! ## Termination with `MaxIterations` -/

theorem boIteration_not_diverge (P : BoParams α M) (f : StateFun α M) (afun : List α → α) (st : BoState α M)
    (hops : ∀ s v m, P.ops.addSample s v m ≠ .diverge) (hhp : ∀ m, P.ops.optHp m ≠ .diverge) :
    boIteration P f afun st ≠ .diverge := by
  have hand : ∀ (r : Res (BoState α M)) (g : BoState α M → Res (BoState α M)), r ≠ .diverge → (∀ s, g s ≠ .diverge) → r.andThen g ≠ .diverge := by
    intro r g hr hg
    cases r with
    | ok s => exact hg s
    | throw e s => simp [Res.andThen, Res.bind]
    | ub => simp [Res.andThen, Res.bind]
    | diverge => exact absurd rfl hr
  have hwm : ∀ (s : BoState α M) (r : Res M), r ≠ .diverge → withModel s r ≠ .diverge := by
    intro s r hr
    cases r with
    | diverge => exact absurd rfl hr
    | _ => simp [withModel, Res.bind]
  unfold boIteration
  simp only
  split
  · simp
  · simp
  · refine hand _ _ ?_ fun s => hand _ _ ?_ fun s => hand _ _ ?_ fun s => hand _ _ ?_ fun s => by simp
    · unfold evalAndAdd; simp only; split
      · simp
      · unfold addNewSample; split <;> simp
    · unfold updateStats; simp only; split
      · split <;> simp
      · simp
    · unfold boModelAdd; split
      · exact hwm _ _ (hops _ _ _)
      · simp
    · unfold boHp; split
      · exact hwm _ _ (hhp _)
      · simp

theorem boStop_maxIterations {P : BoParams α M} {N : Int} (hP : P.stop = [maxIterations N]) (afun : List α → α) (st : BoState α M) :
    boStop P afun st = some (decide (N ≤ st.currentIteration), { st with trace := st.trace ++ [.asked 0 (decide (N ≤ st.currentIteration))] }) := by
  simp [boStop, hP, chainCriteria, maxIterations]

theorem Loops.count_maxIterations {P : BoParams α M} {N : Int} (hP : P.stop = [maxIterations N]) {f : StateFun α M} {afun : List α → α}
    {n : Nat} {st st' : BoState α M} (h : Loops P f afun n st st') : (n : Int) = max (N - st.currentIteration) 0 := by
  induction h with
  | done hs =>
    rw [boStop_maxIterations hP] at hs
    simp only [Option.some.injEq, Prod.mk.injEq, decide_eq_true_eq] at hs
    have := hs.1; omega
  | step hs hi hl ih =>
    rw [boStop_maxIterations hP] at hs
    simp only [Option.some.injEq, Prod.mk.injEq, decide_eq_false_iff_not] at hs
    obtain ⟨x, v, m1, m2, logs, -, -, -, -, -, rfl⟩ := boIteration_ok hi
    simp only at ih
    have h1 := hs.1
    rw [← hs.2] at ih
    simp only at ih
    push_cast; omega

theorem boLoop_terminates {P : BoParams α M} {N : Int} (hN : ∀ afun (st : BoState α M) b st', boStop P afun st = some (b, st') → N ≤ st.currentIteration → b = true)
    (hops : ∀ s v m, P.ops.addSample s v m ≠ .diverge) (hhp : ∀ m, P.ops.optHp m ≠ .diverge)
    (f : StateFun α M) (afun : List α → α) : ∀ (fuel : Nat) (st : BoState α M), N - st.currentIteration < fuel →
    boLoop P f afun (fuel + 1) st ≠ .diverge := by
  intro fuel
  induction fuel with
  | zero =>
    intro st h
    unfold boLoop
    split
    · simp
    · simp
    · next s hs => exact absurd (hN _ _ _ _ hs (by omega)) (by simp)
  | succ k ih =>
    intro st h
    unfold boLoop
    split
    · simp
    · simp
    · next s hs =>
      obtain ⟨as, rfl, -⟩ := boStop_spec hs
      have hnd := boIteration_not_diverge P f afun { st with trace := st.trace ++ as } hops hhp
      cases hi : boIteration P f afun { st with trace := st.trace ++ as } with
      | ok s2 =>
        obtain ⟨x, v, m1, m2, logs, -, -, -, -, -, rfl⟩ := boIteration_ok hi
        exact ih _ (by simp only; omega)
      | throw e s => simp [Res.andThen, Res.bind]
      | ub => simp [Res.andThen, Res.bind]
      | diverge => exact absurd hi hnd

end Limbo
