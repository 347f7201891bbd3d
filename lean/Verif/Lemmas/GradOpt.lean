import Verif.Model.GradOpt
import Verif.Spec.Opt
import Mathlib.Tactic.NormNum
import Mathlib.Tactic.Linarith

/-! Helper lemmas for the gradient optimizers. -/

namespace Limbo

variable {α : Type}

open LawfulCmp LawfulArith

/-! ### clamping -/

section clamp
variable [Scalar α] [LawfulArith α]

theorem zero_le_one' : le (lit 0 : α) (lit 1) = true := lit_mono 0 1 (by norm_num)

theorem lit_not_nan (q : ℚ) (h : |q| ≤ 1000000) : isNaN (lit q : α) = false := by
  have := lit_finite (α := α) q h
  simp only [isFinite, Bool.and_eq_true, Bool.not_eq_true'] at this
  exact this.1

theorem zero_not_nan : isNaN (lit 0 : α) = false := lit_not_nan 0 (by norm_num)
theorem one_not_nan : isNaN (lit 1 : α) = false := lit_not_nan 1 (by norm_num)

/-- A coordinate clamped by the two `if`s, in `[0,1]` unless NaN. -/
theorem clampCoord_spec (x : α) :
    isNaN (clampCoord x) = true ∨ (le (lit 0) (clampCoord x) = true ∧ le (clampCoord x) (lit 1) = true) := by
  unfold clampCoord
  cases hx : isNaN x with
  | true =>
    left
    simp [nan_lt_left x _ hx, nan_lt_right _ x hx, hx]
  | false =>
    right
    by_cases h0 : lt x (lit 0) = true
    · have h1 : lt (lit 1 : α) (lit 0) = false := lt_asymm' lit_zero_lt_one
      simp [h0, h1, zero_le_one', le_refl' (lit 0 : α) zero_not_nan]
    · rw [if_neg h0]
      have h0' : le (lit 0) x = true := le_of_not_lt hx zero_not_nan (by simpa using h0)
      by_cases h1 : lt (lit 1) x = true
      · simp [h1, zero_le_one', le_refl' (lit 1 : α) one_not_nan]
      · rw [if_neg h1]
        exact ⟨h0', le_of_not_lt one_not_nan hx (by simpa using h1)⟩

theorem clampCoord_not_nan {x : α} (hx : isNaN x = false) : isNaN (clampCoord x) = false := by
  unfold clampCoord
  dsimp only
  split_ifs <;> first | exact one_not_nan | exact zero_not_nan | exact hx

theorem clampIf_box_or_nan (v : List α) : InUnitBoxOrNaN v.length (clampIf true v) := by
  refine ⟨by simp [clampIf], ?_⟩
  intro x hx
  simp only [clampIf, if_true, List.mem_map] at hx
  obtain ⟨y, _, rfl⟩ := hx
  exact clampCoord_spec y

theorem clampIf_box (v : List α) (hv : ∀ x ∈ v, isNaN x = false) : InUnitBox v.length (clampIf true v) := by
  refine ⟨by simp [clampIf], ?_⟩
  intro x hx
  simp only [clampIf, if_true, List.mem_map] at hx
  obtain ⟨y, hy, rfl⟩ := hx
  rcases clampCoord_spec y with h | h
  · rw [clampCoord_not_nan (hv y hy)] at h; simp at h
  · exact h

end clamp

theorem length_clampIf [Scalar α] (b : Bool) (v : List α) : (clampIf b v).length = v.length := by
  unfold clampIf; split_ifs <;> simp

/-! ### Rprop -/

section rprop

theorem length_rpropCoords [Scalar α] (b : Bool) : ∀ (gg g d p : List α) (n : Nat), gg.length = n → g.length = n →
    d.length = n → p.length = n → (rpropCoords b gg g d p).length = n
  | [], g, d, p, n, h, _, _, _ => by simp at h; subst h; simp [rpropCoords]
  | _ :: gg, [], d, p, n, h, h2, _, _ => by simp at h h2; omega
  | _ :: gg, _ :: g, [], p, n, h, _, h3, _ => by simp at h h3; omega
  | _ :: gg, _ :: g, _ :: d, [], n, h, _, _, h4 => by simp at h h4; omega
  | _ :: gg, _ :: g, _ :: d, _ :: p, n, h1, h2, h3, h4 => by
    obtain ⟨n, rfl⟩ : ∃ m, n = m + 1 := ⟨gg.length, by simp at h1; omega⟩
    simp only [rpropCoords, List.length_cons, Nat.add_right_cancel_iff] at *
    exact length_rpropCoords b gg g d p n h1 h2 h3 h4

theorem mem_rpropCoords [Scalar α] (b : Bool) : ∀ (gg g d p : List α) (r : α × α × α),
    r ∈ rpropCoords b gg g d p → ∃ a ∈ gg, ∃ x ∈ g, ∃ y ∈ d, ∃ z ∈ p, r = rpropCoord b a x y z
  | [], g, d, p, r, h => by simp [rpropCoords] at h
  | _ :: gg, [], d, p, r, h => by simp [rpropCoords] at h
  | _ :: gg, _ :: g, [], p, r, h => by simp [rpropCoords] at h
  | _ :: gg, _ :: g, _ :: d, [], r, h => by simp [rpropCoords] at h
  | a :: gg, x :: g, y :: d, z :: p, r, h => by
    rw [rpropCoords, List.mem_cons] at h
    rcases h with rfl | h
    · exact ⟨a, by simp, x, by simp, y, by simp, z, by simp, rfl⟩
    · obtain ⟨a', ha, x', hx, y', hy, z', hz, rfl⟩ := mem_rpropCoords b gg g d p r h
      exact ⟨a', by simp [ha], x', by simp [hx], y', by simp [hy], z', by simp [hz], rfl⟩

/-- Admissible step size. -/
def GoodDelta [Scalar α] (d : α) : Prop := le (lit (1/1000000)) d = true ∧ le d (lit 50) = true

variable [Scalar α] [LawfulArith α]

theorem GoodDelta.finite {d : α} (h : GoodDelta d) : isFinite d = true :=
  finite_between _ _ _ (lit_finite _ (by norm_num [abs_le])) (lit_finite _ (by norm_num [abs_le])) h.1 h.2

theorem goodDelta_init : GoodDelta (lit (1/10) : α) :=
  ⟨lit_mono _ _ (by norm_num), lit_mono _ _ (by norm_num)⟩

theorem GoodDelta.grow {d : α} (h : GoodDelta d) : GoodDelta (stdMin (d * lit (12/10)) (lit 50)) := by
  unfold stdMin
  have hf12 : isFinite (lit (12/10) : α) = true := lit_finite _ (by norm_num [abs_le])
  have hnn : isNaN (d * lit (12/10)) = false := mul_not_nan _ _ h.finite hf12
  have h50 : isNaN (lit 50 : α) = false := lit_not_nan 50 (by norm_num)
  split_ifs with hc
  · exact ⟨lit_mono _ _ (by norm_num), le_refl' _ h50⟩
  · refine ⟨?_, le_of_not_lt h50 hnn (by simpa using hc)⟩
    refine le_trans _ _ _ grow_min ?_
    exact mul_mono _ _ _ _ (lit_mono _ _ (by norm_num)) h.1 (lit_mono _ _ (by norm_num))
      (le_refl' _ (lit_not_nan _ (by norm_num [abs_le]))) h.finite hf12

theorem GoodDelta.shrink {d : α} (h : GoodDelta d) : GoodDelta (stdMax (d * lit (1/2)) (lit (1/1000000))) := by
  unfold stdMax
  have hf : isFinite (lit (1/2) : α) = true := lit_finite _ (by norm_num [abs_le])
  have hnn : isNaN (d * lit (1/2)) = false := mul_not_nan _ _ h.finite hf
  have hm : isNaN (lit (1/1000000) : α) = false := lit_not_nan _ (by norm_num [abs_le])
  split_ifs with hc
  · exact ⟨le_refl' _ hm, lit_mono _ _ (by norm_num)⟩
  · refine ⟨le_of_not_lt hnn hm (by simpa using hc), ?_⟩
    refine le_trans _ _ _ ?_ half_fifty
    exact mul_mono _ _ _ _ (le_trans _ _ _ (lit_mono _ _ (by norm_num)) h.1) h.2 (lit_mono _ _ (by norm_num))
      (le_refl' _ (lit_not_nan _ (by norm_num [abs_le]))) (lit_finite _ (by norm_num [abs_le])) hf

theorem rpropCoord_delta (b : Bool) (gg g p : α) {d : α} (h : GoodDelta d) :
    GoodDelta (rpropCoord b gg g d p).1 := by
  unfold rpropCoord
  split_ifs
  · exact h.grow
  · exact h.shrink
  · exact h

omit [LawfulArith α] in
theorem signum_bound (x : α) : -1 ≤ signum x ∧ signum x ≤ 1 := by
  unfold signum boolToInt; split_ifs <;> decide

/-- The `params(j)` produced by one coordinate update, before clamping. -/
def rawCoord {β : Type} [Scalar β] (g d p : β) : β := p + (lit (-(signum g) : Int)) * d

omit [LawfulArith α] in
theorem rpropCoord_params (gg g d p : α) : ∃ g' : α,
    (rpropCoord true gg g d p).2.2 = clampCoord (rawCoord g' (rpropCoord true gg g d p).1 p) := by
  by_cases h1 : lt (lit 0) gg = true
  · exact ⟨g, by simp only [rpropCoord, clampCoord, rawCoord, h1, if_true, Bool.true_and]⟩
  · by_cases h2 : lt gg (lit 0) = true
    · exact ⟨lit 0, by simp only [rpropCoord, clampCoord, rawCoord, h1, h2, if_true, Bool.true_and]; rfl⟩
    · exact ⟨g, by simp only [rpropCoord, clampCoord, rawCoord, h1, h2, Bool.true_and]; rfl⟩

theorem rawCoord_not_nan {g d p : α} (h : GoodDelta d) (hp : isFinite p = true) :
    isNaN (rawCoord g d p) = false := by
  refine add_not_nan _ _ hp (mul_not_nan _ _ (lit_finite _ ?_) h.finite)
  obtain ⟨h1, h2⟩ := signum_bound g
  rw [abs_le]
  constructor
  · have : (-1000000 : ℤ) ≤ -(signum g) := by omega
    exact_mod_cast this
  · have : (-(signum g) : ℤ) ≤ 1000000 := by omega
    exact_mod_cast this

theorem finite_of_box {p : α} (h : le (lit 0) p = true ∧ le p (lit 1) = true) : isFinite p = true :=
  finite_between _ _ _ (lit_finite 0 (by norm_num)) (lit_finite 1 (by norm_num)) h.1 h.2

theorem rpropCoord_box (gg g : α) {d p : α} (h : GoodDelta d)
    (hp : le (lit 0) p = true ∧ le p (lit 1) = true) :
    le (lit 0) (rpropCoord true gg g d p).2.2 = true ∧ le (rpropCoord true gg g d p).2.2 (lit 1) = true := by
  obtain ⟨g', hg⟩ := rpropCoord_params gg g d p
  rw [hg]
  rcases clampCoord_spec (rawCoord g' (rpropCoord true gg g d p).1 p) with hn | hb
  · rw [clampCoord_not_nan (rawCoord_not_nan (rpropCoord_delta true gg g p h) (finite_of_box hp))] at hn
    simp at hn
  · exact hb

theorem rpropCoord_box_or_nan (gg g d p : α) :
    isNaN (rpropCoord true gg g d p).2.2 = true ∨
    (le (lit 0) (rpropCoord true gg g d p).2.2 = true ∧ le (rpropCoord true gg g d p).2.2 (lit 1) = true) := by
  obtain ⟨g', hg⟩ := rpropCoord_params gg g d p
  rw [hg]; exact clampCoord_spec _

end rprop

/-! ### Generic loop facts -/

/-- Shape invariant of the Rprop loop. -/
structure RpropShape {β : Type} (d : Nat) (s : RpropState β) : Prop where
  delta : s.delta.length = d
  gradOld : s.gradOld.length = d
  params : s.params.length = d

theorem rpropStep_shape [ScalarFn α] {f : ObjFn α} {b : Bool} {e : α} {s s' : RpropState α} {st : Bool} {d : Nat}
    (hs : RpropShape d s) (h : rpropStep f b e s = some (s', st)) : RpropShape d s' := by
  unfold rpropStep at h
  simp only at h
  split at h
  · simp at h
  · rename_i g hg
    by_cases hl : g.length = s.params.length
    swap
    · rw [if_neg hl] at h; simp at h
    rw [if_pos hl] at h
    simp only [Option.some.injEq, Prod.mk.injEq] at h
    obtain ⟨rfl, -⟩ := h
    have hlen := length_rpropCoords b (List.zipWith (· * ·) s.gradOld (g.map (fun x => -x)))
      (g.map (fun x => -x)) s.delta s.params d (by simp [hs.gradOld, hl, hs.params])
      (by simp [hl, hs.params]) hs.delta hs.params
    exact ⟨by simpa using hlen, by simpa using hlen, by simpa using hlen⟩

/-- Invariant transport through the loop. -/
theorem rpropLoop_inv [ScalarFn α] {f : ObjFn α} {b : Bool} {e : α} (I : RpropState α → Prop)
    (hstep : ∀ s s' st, I s → rpropStep f b e s = some (s', st) → I s') :
    ∀ (n : Nat) (s s' : RpropState α), I s → rpropLoop f b e n s = some s' → I s' := by
  intro n
  induction n with
  | zero => intro s s' hs h; simp only [rpropLoop, Option.some.injEq] at h; subst h; exact hs
  | succ n ih =>
    intro s s' hs h
    rw [rpropLoop] at h
    split at h
    · simp at h
    · rename_i s1 h1; simp only [Option.some.injEq] at h; subst h; exact hstep _ _ _ hs h1
    · rename_i s1 h1; exact ih _ _ (hstep _ _ _ hs h1) h

/-- What one step does to the ghost and best-so-far fields. -/
theorem rpropStep_fields [ScalarFn α] {f : ObjFn α} {b : Bool} {e : α} {s s' : RpropState α} {st : Bool}
    (h : rpropStep f b e s = some (s', st)) :
    s'.trace = s.trace ++ [s.params] ∧ s'.steps = s.steps ++ [s'.delta] ∧
    s'.best = (if lt s.best (f s.params true).1 then (f s.params true).1 else s.best) ∧
    s'.bestParams = (if lt s.best (f s.params true).1 then s.params else s.bestParams) := by
  unfold rpropStep at h
  simp only at h
  split at h
  · simp at h
  · rename_i g hg
    by_cases hl : g.length = s.params.length
    swap
    · rw [if_neg hl] at h; simp at h
    rw [if_pos hl] at h
    simp only [Option.some.injEq, Prod.mk.injEq] at h
    obtain ⟨rfl, -⟩ := h
    exact ⟨rfl, rfl, rfl, rfl⟩

theorem rpropStep_params [ScalarFn α] {f : ObjFn α} {b : Bool} {e : α} {s s' : RpropState α} {st : Bool}
    (h : rpropStep f b e s = some (s', st)) : ∃ g, (f s.params true).2 = some g ∧ g.length = s.params.length ∧
    s'.params = (rpropCoords b (List.zipWith (· * ·) s.gradOld (g.map (fun x => -x)))
      (g.map (fun x => -x)) s.delta s.params).map (·.2.2) ∧
    s'.delta = (rpropCoords b (List.zipWith (· * ·) s.gradOld (g.map (fun x => -x)))
      (g.map (fun x => -x)) s.delta s.params).map (·.1) ∧
    s'.gradOld = (rpropCoords b (List.zipWith (· * ·) s.gradOld (g.map (fun x => -x)))
      (g.map (fun x => -x)) s.delta s.params).map (·.2.1) ∧
    st = lt (ScalarFn.norm s'.gradOld) e := by
  unfold rpropStep at h
  simp only at h
  split at h
  · simp at h
  · rename_i g hg
    by_cases hl : g.length = s.params.length
    swap
    · rw [if_neg hl] at h; simp at h
    rw [if_pos hl] at h
    simp only [Option.some.injEq, Prod.mk.injEq] at h
    obtain ⟨rfl, rfl⟩ := h
    exact ⟨g, hg, hl, rfl, rfl, rfl, rfl⟩

/-- Best-so-far invariant: either nothing above `-inf` was seen, or the best is a first best. -/
def RpropBest {β : Type} [Scalar β] (f : ObjFn β) (start : List β) (s : RpropState β) : Prop :=
  isNaN s.best = false ∧
  ((s.best = negInf ∧ s.bestParams = start ∧ ∀ q ∈ s.trace, lt negInf (f q true).1 = false) ∨
   (s.best = (f s.bestParams true).1 ∧ lt negInf s.best = true ∧
    FirstBest (fun q => (f q true).1) s.trace s.bestParams))

theorem rpropStep_best [ScalarFn α] [LawfulCmp α] {f : ObjFn α} {b : Bool} {e : α} {s s' : RpropState α} {st : Bool}
    {start : List α} (hs : RpropBest f start s) (h : rpropStep f b e s = some (s', st)) : RpropBest f start s' := by
  obtain ⟨ht, -, hb, hbp⟩ := rpropStep_fields h
  obtain ⟨hnan, hcase⟩ := hs
  by_cases hlt : lt s.best (f s.params true).1 = true
  · rw [if_pos hlt] at hb hbp
    have hn := not_nan_of_lt hlt
    refine ⟨by rw [hb]; exact hn.2, Or.inr ⟨by rw [hb, hbp], ?_, ?_⟩⟩
    · rw [hb]
      refine lt_of_le_of_lt (negInf_le _ hn.1) hlt
    · rw [hbp]
      refine ⟨hn.2, s.trace, [], by rw [ht], ?_, ?_⟩
      · intro q hq
        cases hc : le (f s.params true).1 (f q true).1 with
        | false => rfl
        | true =>
          have hlt2 := lt_of_lt_of_le hlt hc
          rcases hcase with ⟨h1, -, h3⟩ | ⟨h1, -, -, pre, post, -, -, h5⟩
          · rw [h1, h3 q hq] at hlt2; simp at hlt2
          · rw [h1, h5 q hq] at hlt2; simp at hlt2
      · intro q hq
        rw [ht] at hq
        rcases List.mem_append.1 hq with hq | hq
        · cases hc : lt (f s.params true).1 (f q true).1 with
          | false => rfl
          | true =>
            have hlt2 := lt_trans' hlt hc
            rcases hcase with ⟨h1, -, h3⟩ | ⟨h1, -, -, pre, post, -, -, h5⟩
            · rw [h1, h3 q hq] at hlt2; simp at hlt2
            · rw [h1, h5 q hq] at hlt2; simp at hlt2
        · simp only [List.mem_singleton] at hq; subst hq; exact lt_irrefl' _
  · rw [if_neg hlt] at hb hbp
    have hlt' : lt s.best (f s.params true).1 = false := by simpa using hlt
    refine ⟨by rw [hb]; exact hnan, ?_⟩
    rcases hcase with ⟨h1, h2, h3⟩ | ⟨h1, h2, hnn, pre, post, h4, h5, h6⟩
    · left
      refine ⟨by rw [hb, h1], by rw [hbp, h2], ?_⟩
      intro q hq
      rw [ht] at hq
      rcases List.mem_append.1 hq with hq | hq
      · exact h3 q hq
      · simp only [List.mem_singleton] at hq; subst hq; rw [← h1]; exact hlt'
    · right
      refine ⟨by rw [hb, hbp, h1], by rw [hb]; exact h2, by rw [hbp]; exact hnn, pre, post ++ [s.params], ?_, ?_, ?_⟩
      · rw [ht, hbp, h4]; simp
      · rw [hbp]; exact h5
      · rw [hbp, ht]
        intro q hq
        rcases List.mem_append.1 hq with hq | hq
        · exact h6 q hq
        · simp only [List.mem_singleton] at hq; subst hq
          show lt (f s.bestParams true).1 (f s.params true).1 = false
          rw [← h1]; exact hlt'

theorem rpropLoop_trace_len [ScalarFn α] {f : ObjFn α} {b : Bool} {e : α} :
    ∀ (n : Nat) (s s' : RpropState α), rpropLoop f b e n s = some s' →
      s'.trace.length ≤ s.trace.length + n ∧ s.trace <+: s'.trace ∧
      (0 < n → (s.trace ++ [s.params]) <+: s'.trace) ∧
      ((∀ v, lt (ScalarFn.norm v) e = false) → s'.trace.length = s.trace.length + n) := by
  intro n
  induction n with
  | zero => intro s s' h; simp only [rpropLoop, Option.some.injEq] at h; subst h; simp
  | succ n ih =>
    intro s s' h
    rw [rpropLoop] at h
    split at h
    · simp at h
    · rename_i s1 h1
      simp only [Option.some.injEq] at h; subst h
      obtain ⟨ht, -⟩ := rpropStep_fields h1
      obtain ⟨g, -, -, -, -, -, hst⟩ := rpropStep_params h1
      rw [ht]
      refine ⟨by simp, by simp, by simp, ?_⟩
      intro hv; rw [hv] at hst; simp at hst
    · rename_i s1 h1
      obtain ⟨ht, -⟩ := rpropStep_fields h1
      obtain ⟨a1, a2, a3, a4⟩ := ih _ _ h
      rw [ht] at a1 a2
      refine ⟨by simp at a1; omega, (by simp : s.trace <+: s.trace ++ [s.params]).trans a2, fun _ => a2, ?_⟩
      intro hv; rw [a4 hv, ht]; simp; omega

end Limbo
