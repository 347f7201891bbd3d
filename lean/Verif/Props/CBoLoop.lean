import Verif.Lemmas.CBo3
import Verif.Props.CBo

/-! # C76 — when the constrained optimizer stops and when it optimizes hyper-parameters -/

namespace Limbo

set_option linter.unusedSectionVars false

section
variable {α M C : Type} [Scalar α]

theorem cbInit_trace {P : CBoParams α M C} {f : StateFun α M} {reset : Bool} {st b1 : BoState α M}
    (h : cbInit P f reset (st.push (.start reset)) = .ok b1) :
    ∃ pts vs, pts.length = vs.length ∧ b1.trace = st.trace ++ .start reset :: retEvents pts vs := by
  rw [cbInit_eq, boInit_eq] at h
  have htr : (initState reset st).trace = st.trace ++ [.start reset] := by cases reset <;> rfl
  split at h
  · split at h
    · next pts _ =>
      obtain ⟨vs, hlen, -, rfl⟩ := evalAll_ok h
      exact ⟨pts, vs, hlen.symm, by simp only; rw [htr]; simp⟩
    · simp at h
  · simp only [Res.ok.injEq] at h
    subst h
    exact ⟨[], [], rfl, by rw [htr]; simp [retEvents]⟩

theorem cbModelInit_trace {P : CBoParams α M C} {f : StateFun α M} {st st' : CBoState α M C} (h : cbModelInit P f st = .ok st') :
    st'.base.trace = st.base.trace := by
  unfold cbModelInit at h
  split at h
  · simp only at h
    split at h <;> (simp only [Res.ok.injEq] at h; subst h; rfl)
  · split at h
    · simp only at h
      obtain ⟨s1, h1, h2⟩ := Res.andThen_ok h
      obtain ⟨b, hb, rfl⟩ := cbBase_ok h1
      obtain ⟨m, hm, rfl⟩ := withModel_ok hb
      split at h2
      · obtain ⟨c, -, rfl⟩ := cbCmodel_ok h2
        rfl
      · simp only [Res.ok.injEq] at h2
        subst h2
        rfl
    · simp at h

/-- The events of a run of `CBOptimizer` that returns normally after `n` iterations: first the initial evaluations; before every iteration all
criteria are asked, in order, and all refuse; the run ends at the first criterion that approves; the hyper-parameters are optimized during
iterations `p, 2p, ..` (`p` the period) and no others. -/
theorem C76_run (P : CBoParams α M C) (p : Nat) (hp : 0 < p) (hP : P.hpPeriod = p) (f : StateFun α M) (nb : Nat) (afun : List α → α) (reset : Bool)
    (fuel : Nat) (st st' : CBoState α M C) (h : cbOptimize P f nb afun reset fuel st = .ok st') :
    ∃ (n : Nat) (seg0 seg : List (Event α M)), st'.base.trace = st.base.trace ++ .start reset :: (seg0 ++ seg) ∧
      (∀ e ∈ seg0, ∃ x v, e = .call x (.ret v)) ∧ st'.base.currentIteration = n ∧ acquiCount seg = n ∧
      hpMarks 0 seg = (List.range (n / p)).map (fun k => (k + 1) * p) ∧
      (∃ pre j, seg = pre ++ [.asked j true] ∧ ∀ i, .asked i true ∉ pre) ∧
      (∀ pre mo it post, seg = pre ++ .acqui mo it :: post → (List.range P.stop.length).map (fun i => .asked i false) <:+ pre) := by
  obtain ⟨b1, s2, hb1, hs2, hl⟩ := cbOptimize_ok h
  obtain ⟨pts, vs, hlen, ht⟩ := cbInit_trace hb1
  have ht2 := cbModelInit_trace hs2
  obtain ⟨-, -, -, e4, -⟩ := cbModelInit_ok hs2
  have hc0 : s2.base.currentIteration = 0 := by rw [e4]; exact cbInit_currentIteration hb1
  obtain ⟨n, seg, i1, i2, i3, i4, ⟨j, i5⟩, i6, i7⟩ := cbLoop_trace hl
  refine ⟨n, retEvents pts vs, seg, ?_, ?_, by rw [i2, hc0]; simp, i3, ?_, ?_, i6⟩
  · rw [i1, ht2]
    simp only
    rw [ht]
    simp
  · intro e he
    simp only [retEvents] at he
    clear ht hlen
    induction pts generalizing vs with
    | nil => simp at he
    | cons x xs ih =>
      cases vs with
      | nil => simp at he
      | cons v vs =>
        simp only [List.zipWith_cons_cons, List.mem_cons] at he
        rcases he with rfl | he
        · exact ⟨x, v, rfl⟩
        · exact ih vs he
  · have := i4 0 hc0
    simp only [Nat.zero_add] at this
    rw [this, ← filter_multiples p hp n]
    apply List.filter_congr
    intro k hk
    rw [decide_eq_decide]
    have e : ((k : Int) - 1 + 1) = ((k : Nat) : Int) := by omega
    simp only [cbHpDue, hP, e]
    rw [Int.tmod_eq_emod_of_nonneg (by omega), ← Int.natCast_mod]
    constructor
    · rintro ⟨-, h⟩; exact_mod_cast h
    · intro h; exact ⟨by exact_mod_cast hp, by exact_mod_cast h⟩
  · obtain ⟨q, hq⟩ : ∃ q, seg = q ++ [.asked j true] := by
      rw [List.getLast?_eq_some_iff] at i5
      exact i5
    refine ⟨q, j, hq, fun i hi => ?_⟩
    obtain ⟨a, b, rfl⟩ := List.append_of_mem hi
    have := i7 i true (b ++ [.asked j true]) a (by rw [hq]; simp) rfl
    simp at this

/-- With a period of 0 or less the hyper-parameters are never optimized. -/
theorem C76_never (P : CBoParams α M C) (hP : P.hpPeriod ≤ 0) (f : StateFun α M) (nb : Nat) (afun : List α → α) (reset : Bool)
    (fuel : Nat) (st st' : CBoState α M C) (h : cbOptimize P f nb afun reset fuel st = .ok st') :
    ∃ seg, st'.base.trace = st.base.trace ++ .start reset :: seg ∧ hpMarks 0 seg = [] := by
  obtain ⟨b1, s2, hb1, hs2, hl⟩ := cbOptimize_ok h
  obtain ⟨pts, vs, hlen, ht⟩ := cbInit_trace hb1
  have ht2 := cbModelInit_trace hs2
  obtain ⟨-, -, -, e4, -⟩ := cbModelInit_ok hs2
  have hc0 : s2.base.currentIteration = 0 := by rw [e4]; exact cbInit_currentIteration hb1
  obtain ⟨n, seg, i1, i2, i3, i4, -, -, -⟩ := cbLoop_trace hl
  obtain ⟨-, -, r3, r4⟩ := retEvents_spec (M := M) pts vs hlen
  refine ⟨retEvents pts vs ++ seg, ?_, ?_⟩
  · rw [i1, ht2]
    simp only
    rw [ht]
    simp
  · rw [hpMarks_append, r4, r3]
    have := i4 0 hc0
    simp only [Nat.zero_add, List.nil_append, Nat.add_zero] at this ⊢
    rw [this, List.filter_eq_nil_iff]
    intro k _
    simp only [decide_eq_true_eq, cbHpDue]
    omega

/-- An iteration in which the optimization is due optimizes both models, after the new sample was added to them (the constraint model only if there
are constraints); an iteration in which it is not due leaves both as they are after adding the sample. -/
theorem C76_both_models (P : CBoParams α M C) (f : StateFun α M) (afun : List α → α) (st st' : CBoState α M C)
    (h : cbIteration P f afun st = .ok st') :
    ∃ x m1 c1, (∃ o, P.ops.addSample x o st.base.model = .ok m1) ∧ (0 < st.nb → ∃ w, P.cops.addSample x w st.cmodel = .ok c1) ∧
      (0 < P.hpPeriod → P.hpPeriod ∣ st.base.currentIteration + 1 →
        P.ops.optHp m1 = .ok st'.base.model ∧ (0 < st.nb → P.cops.optHp c1 = .ok st'.cmodel)) ∧
      (P.hpPeriod ≤ 0 ∨ ¬ P.hpPeriod ∣ st.base.currentIteration + 1 → st'.base.model = m1 ∧ st'.cmodel = c1) := by
  obtain ⟨x, v, m1, c1, -, -, -, h1, h2, h3, h4⟩ := cbIteration_trace h
  refine ⟨x, m1, c1, h1, h2, fun ha hb => h3 ⟨ha, Int.tmod_eq_zero_of_dvd hb⟩, fun hab => h4 ?_⟩
  rintro ⟨ha, hb⟩
  rcases hab with hab | hab
  · omega
  · exact hab (Int.dvd_of_tmod_eq_zero hb)

end

/-- A run of two iterations with period 1: hyper-parameters optimized in both, criterion asked three times. -/
example : (match cbOptimize (exCbP []) (exCbF []) 1 firstElem true 10 (newCBo 0 0 0 (0, []) (0, [])) with
    | .ok st => decide (hpMarks 0 st.base.trace = [1, 2] ∧ acquiCount st.base.trace = 2)
    | _ => false) = true := by decide +kernel

end Limbo
