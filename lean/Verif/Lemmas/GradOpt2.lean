import Verif.Lemmas.GradOpt
import Verif.Lemmas.XtLaws
import Mathlib.Analysis.SpecialFunctions.Pow.Real

/-! Helper lemmas for gradient ascent and Adam, and real-arithmetic facts. -/

namespace Limbo

variable {α : Type}
open LawfulCmp LawfulArith

/-! ### Gradient ascent -/

/-- Invariant of the bounded gradient-ascent loop. -/
structure GaInv {β : Type} [Scalar β] (d : Nat) (s : GaState β) : Prop where
  v : s.v.length = d
  params : InUnitBoxOrNaN d s.params
  trace : ∀ q ∈ s.trace, InUnitBoxOrNaN d q

theorem gaStep_eq [ScalarFn α] {P : GaParams α} {f : ObjFn α} {b : Bool} {s s' : GaState α} {st : Bool}
    (h : gaStep P f b s = some (s', st)) : ∃ g, (f (gaQuery P b s) true).2 = some g ∧ g.length = s.params.length ∧
    s'.v = List.zipWith (fun v g => P.gamma * v + P.alpha * g) s.v g ∧
    s'.params = clampIf b (List.zipWith (fun p v => p + v) s.params s'.v) ∧
    s'.trace = s.trace ++ [gaQuery P b s] ∧
    st = lt (ScalarFn.norm (List.zipWith (fun a b => a - b) s.params s'.params)) P.epsStop := by
  unfold gaStep at h
  simp only at h
  split at h
  · simp at h
  · rename_i g hg
    by_cases hl : g.length = s.params.length
    swap
    · rw [if_neg hl] at h; simp at h
    rw [if_pos hl] at h
    simp only [Option.some.injEq, Prod.mk.injEq] at h
    obtain ⟨rfl, rfl⟩ := h
    exact ⟨g, hg, hl, rfl, rfl, rfl, rfl⟩

theorem gaQuery_box [ScalarFn α] [LawfulArith α] {P : GaParams α} {s : GaState α} {d : Nat} (hs : GaInv d s) :
    InUnitBoxOrNaN d (gaQuery P true s) := by
  unfold gaQuery
  split_ifs
  · have := clampIf_box_or_nan (List.zipWith (fun p v => p + P.gamma * v) s.params s.v)
    have hl : (List.zipWith (fun p v => p + P.gamma * v) s.params s.v).length = d := by
      simp [hs.params.1, hs.v]
    rw [hl] at this; exact this
  · exact hs.params

theorem gaStep_inv [ScalarFn α] [LawfulArith α] {P : GaParams α} {f : ObjFn α} {s s' : GaState α} {st : Bool} {d : Nat}
    (hs : GaInv d s) (h : gaStep P f true s = some (s', st)) : GaInv d s' := by
  obtain ⟨g, -, hl, hv, hp, ht, -⟩ := gaStep_eq h
  have hvl : s'.v.length = d := by rw [hv]; simp [hs.v, hl, hs.params.1]
  refine ⟨hvl, ?_, ?_⟩
  · rw [hp]
    have := clampIf_box_or_nan (List.zipWith (fun p v => p + v) s.params s'.v)
    have hl' : (List.zipWith (fun p v => p + v) s.params s'.v).length = d := by
      simp [hs.params.1, hvl]
    rw [hl'] at this; exact this
  · rw [ht]
    intro q hq
    rcases List.mem_append.1 hq with hq | hq
    · exact hs.trace q hq
    · simp only [List.mem_singleton] at hq; subst hq; exact gaQuery_box hs

theorem gaLoop_inv [ScalarFn α] {P : GaParams α} {f : ObjFn α} {b : Bool} (I : GaState α → Prop)
    (hstep : ∀ s s' st, I s → gaStep P f b s = some (s', st) → I s') :
    ∀ (n : Nat) (s s' : GaState α), I s → gaLoop P f b n s = some s' → I s' := by
  intro n
  induction n with
  | zero => intro s s' hs h; simp only [gaLoop, Option.some.injEq] at h; subst h; exact hs
  | succ n ih =>
    intro s s' hs h
    rw [gaLoop] at h
    split at h
    · simp at h
    · rename_i s1 h1; simp only [Option.some.injEq] at h; subst h; exact hstep _ _ _ hs h1
    · rename_i s1 h1; exact ih _ _ (hstep _ _ _ hs h1) h

theorem gaLoop_trace_len [ScalarFn α] {P : GaParams α} {f : ObjFn α} {b : Bool} :
    ∀ (n : Nat) (s s' : GaState α), gaLoop P f b n s = some s' →
      s'.trace.length ≤ s.trace.length + n ∧
      ((∀ v, lt (ScalarFn.norm v) P.epsStop = false) → s'.trace.length = s.trace.length + n) := by
  intro n
  induction n with
  | zero => intro s s' h; simp only [gaLoop, Option.some.injEq] at h; subst h; simp
  | succ n ih =>
    intro s s' h
    rw [gaLoop] at h
    split at h
    · simp at h
    · rename_i s1 h1; simp only [Option.some.injEq] at h; subst h
      obtain ⟨g, -, -, -, -, ht, hst⟩ := gaStep_eq h1
      rw [ht]; refine ⟨by simp, ?_⟩
      intro hv; rw [hv] at hst; simp at hst
    · rename_i s1 h1
      obtain ⟨g, -, -, -, -, ht, hst⟩ := gaStep_eq h1
      obtain ⟨a, b'⟩ := ih _ _ h
      rw [ht] at a b'
      refine ⟨by simp at a; omega, fun hv => by rw [b' hv]; simp; omega⟩

/-! ### Adam -/

theorem length_adamCoords [ScalarFn α] (P : AdamParams α) (a b : α) : ∀ (m v p : List α) (n : Nat),
    m.length = n → v.length = n → p.length = n → (adamCoords P a b m v p).length = n
  | [], v, p, n, h, _, _ => by simp at h; subst h; simp [adamCoords]
  | _ :: m, [], p, n, h, h2, _ => by simp at h h2; omega
  | _ :: m, _ :: v, [], n, h, _, h3 => by simp at h h3; omega
  | _ :: m, _ :: v, _ :: p, n, h1, h2, h3 => by
    obtain ⟨n, rfl⟩ : ∃ k, n = k + 1 := ⟨m.length, by simp at h1; omega⟩
    simp only [adamCoords, List.length_cons, Nat.add_right_cancel_iff] at *
    exact length_adamCoords P a b m v p n h1 h2 h3

theorem mem_adamCoords [ScalarFn α] (P : AdamParams α) (a b : α) : ∀ (m v p : List α) (r : α),
    r ∈ adamCoords P a b m v p → ∃ x ∈ m, ∃ y ∈ v, ∃ z ∈ p, r = adamCoord P a b x y z
  | [], v, p, r, h => by simp [adamCoords] at h
  | _ :: m, [], p, r, h => by simp [adamCoords] at h
  | _ :: m, _ :: v, [], r, h => by simp [adamCoords] at h
  | x :: m, y :: v, z :: p, r, h => by
    rw [adamCoords, List.mem_cons] at h
    rcases h with rfl | h
    · exact ⟨x, by simp, y, by simp, z, by simp, rfl⟩
    · obtain ⟨x', hx, y', hy, z', hz, rfl⟩ := mem_adamCoords P a b m v p r h
      exact ⟨x', by simp [hx], y', by simp [hy], z', by simp [hz], rfl⟩

theorem adamStep_eq [ScalarFn α] {P : AdamParams α} {f : ObjFn α} {b : Bool} {s s' : AdamState α} {st : Bool}
    (h : adamStep P f b s = some (s', st)) : ∃ g, (f s.params true).2 = some g ∧ g.length = s.params.length ∧
    s'.m = List.zipWith (fun m g => P.b1 * m + (lit 1 - P.b1) * g) s.m g ∧
    s'.v = List.zipWith (fun v g => P.b2 * v + (lit 1 - P.b2) * (g * g)) s.v g ∧
    s'.b1t = s.b1t * P.b1 ∧ s'.b2t = s.b2t * P.b2 ∧
    s'.params = clampIf b (adamCoords P s.b1t s.b2t s'.m s'.v s.params) ∧
    s'.trace = s.trace ++ [s.params] ∧
    st = lt (ScalarFn.norm (List.zipWith (fun a b => a - b) s.params s'.params)) P.epsStop := by
  unfold adamStep at h
  simp only at h
  split at h
  · simp at h
  · rename_i g hg
    by_cases hl : g.length = s.params.length
    swap
    · rw [if_neg hl] at h; simp at h
    rw [if_pos hl] at h
    simp only [Option.some.injEq, Prod.mk.injEq] at h
    obtain ⟨rfl, rfl⟩ := h
    exact ⟨g, hg, hl, rfl, rfl, rfl, rfl, rfl, rfl, rfl⟩

/-- Invariant of the bounded Adam loop. -/
structure AdamInv {β : Type} [Scalar β] (d : Nat) (s : AdamState β) : Prop where
  m : s.m.length = d
  v : s.v.length = d
  params : InUnitBoxOrNaN d s.params
  trace : ∀ q ∈ s.trace, InUnitBoxOrNaN d q

theorem adamStep_inv [ScalarFn α] [LawfulArith α] {P : AdamParams α} {f : ObjFn α} {s s' : AdamState α} {st : Bool} {d : Nat}
    (hs : AdamInv d s) (h : adamStep P f true s = some (s', st)) : AdamInv d s' := by
  obtain ⟨g, -, hl, hm, hv, -, -, hp, ht, -⟩ := adamStep_eq h
  have hml : s'.m.length = d := by rw [hm]; simp [hs.m, hl, hs.params.1]
  have hvl : s'.v.length = d := by rw [hv]; simp [hs.v, hl, hs.params.1]
  refine ⟨hml, hvl, ?_, ?_⟩
  · rw [hp]
    have := clampIf_box_or_nan (adamCoords P s.b1t s.b2t s'.m s'.v s.params)
    rw [length_adamCoords P _ _ _ _ _ d hml hvl hs.params.1] at this
    exact this
  · rw [ht]
    intro q hq
    rcases List.mem_append.1 hq with hq | hq
    · exact hs.trace q hq
    · simp only [List.mem_singleton] at hq; subst hq; exact hs.params

theorem adamLoop_inv [ScalarFn α] {P : AdamParams α} {f : ObjFn α} {b : Bool} (I : AdamState α → Prop)
    (hstep : ∀ s s' st, I s → adamStep P f b s = some (s', st) → I s') :
    ∀ (n : Nat) (s s' : AdamState α), I s → adamLoop P f b n s = some s' → I s' := by
  intro n
  induction n with
  | zero => intro s s' hs h; simp only [adamLoop, Option.some.injEq] at h; subst h; exact hs
  | succ n ih =>
    intro s s' hs h
    rw [adamLoop] at h
    split at h
    · simp at h
    · rename_i s1 h1; simp only [Option.some.injEq] at h; subst h; exact hstep _ _ _ hs h1
    · rename_i s1 h1; exact ih _ _ (hstep _ _ _ hs h1) h

theorem adamLoop_trace_len [ScalarFn α] {P : AdamParams α} {f : ObjFn α} {b : Bool} :
    ∀ (n : Nat) (s s' : AdamState α), adamLoop P f b n s = some s' →
      s'.trace.length ≤ s.trace.length + n ∧
      ((∀ v, lt (ScalarFn.norm v) P.epsStop = false) → s'.trace.length = s.trace.length + n) := by
  intro n
  induction n with
  | zero => intro s s' h; simp only [adamLoop, Option.some.injEq] at h; subst h; simp
  | succ n ih =>
    intro s s' h
    rw [adamLoop] at h
    split at h
    · simp at h
    · rename_i s1 h1; simp only [Option.some.injEq] at h; subst h
      obtain ⟨g, -, -, -, -, -, -, -, ht, hst⟩ := adamStep_eq h1
      rw [ht]; refine ⟨by simp, ?_⟩
      intro hv; rw [hv] at hst; simp at hst
    · rename_i s1 h1
      obtain ⟨g, -, -, -, -, -, -, -, ht, hst⟩ := adamStep_eq h1
      obtain ⟨a, b'⟩ := ih _ _ h
      rw [ht] at a b'
      refine ⟨by simp at a; omega, fun hv => by rw [b' hv]; simp; omega⟩

/-! ### Adam on exact reals: all operands are admissible -/

/-- All coordinates are non-negative real numbers. -/
def AllNonneg (v : List XR) : Prop := ∀ x ∈ v, ∃ r : ℝ, 0 ≤ r ∧ x = XR.fin r

theorem mem_zipWith {β γ δ : Type} (h : β → γ → δ) : ∀ (a : List β) (b : List γ) (x : δ),
    x ∈ List.zipWith h a b → ∃ y ∈ a, ∃ z ∈ b, x = h y z
  | [], _, x, hx => by simp at hx
  | _ :: _, [], x, hx => by simp at hx
  | y :: a, z :: b, x, hx => by
    rw [List.zipWith_cons_cons, List.mem_cons] at hx
    rcases hx with rfl | hx
    · exact ⟨y, by simp, z, by simp, rfl⟩
    · obtain ⟨y', hy, z', hz, rfl⟩ := mem_zipWith h a b x hx
      exact ⟨y', by simp [hy], z', by simp [hz], rfl⟩

theorem XR.div_fin {a b : ℝ} (hb : b ≠ 0) : XR.fin a / XR.fin b = XR.fin (a / b) := by
  show Xt.div Xt.fin (Xt.fin a) (Xt.fin b) = _
  simp [Xt.div, hb, XR.fin]

theorem XR.sqrt_fin {a : ℝ} (ha : 0 ≤ a) : ScalarFn.sqrt (XR.fin a) = XR.fin (Real.sqrt a) := by
  show XR.sqrt (Xt.fin a) = _
  simp [XR.sqrt, not_lt.2 ha, XR.fin]; rfl

theorem clampCoord_fin (r : ℝ) : ∃ s : ℝ, clampCoord (XR.fin r) = XR.fin s := by
  unfold clampCoord
  dsimp only
  split_ifs <;> exact ⟨_, rfl⟩

theorem AllFin_clampIf {b : Bool} {v : List XR} (h : AllFin v) : AllFin (clampIf b v) := by
  unfold clampIf
  split_ifs
  · intro x hx
    rw [List.mem_map] at hx
    obtain ⟨y, hy, rfl⟩ := hx
    obtain ⟨r, rfl⟩ := h y hy
    exact clampCoord_fin r
  · exact h

/-- Real-arithmetic invariant of Adam. -/
structure AdamFin (b1 b2 : ℝ) (s : AdamState XR) : Prop where
  m : AllFin s.m
  v : AllNonneg s.v
  b1t : ∃ t : ℝ, 0 ≤ t ∧ t < 1 ∧ s.b1t = XR.fin t
  b2t : ∃ t : ℝ, 0 ≤ t ∧ t < 1 ∧ s.b2t = XR.fin t
  params : AllFin s.params
  trace : ∀ q ∈ s.trace, AllFin q

theorem adamStep_fin {P : AdamParams XR} {a b1 b2 : ℝ} (ha : P.alpha = XR.fin a)
    (h1 : P.b1 = XR.fin b1) (h2 : P.b2 = XR.fin b2) (hb1 : 0 ≤ b1 ∧ b1 < 1) (hb2 : 0 ≤ b2 ∧ b2 < 1)
    {f : ObjFn XR} (hf : ∀ x g, AllFin x → (f x true).2 = some g → AllFin g) {b : Bool}
    {s s' : AdamState XR} {st : Bool} (hs : AdamFin b1 b2 s) (h : adamStep P f b s = some (s', st)) :
    AdamFin b1 b2 s' := by
  obtain ⟨g, hg, hl, hm, hv, hb1t, hb2t, hp, ht, -⟩ := adamStep_eq h
  have hgf := hf _ _ hs.params hg
  have hm' : AllFin s'.m := by
    rw [hm]; intro x hx
    obtain ⟨y, hy, z, hz, rfl⟩ := mem_zipWith _ _ _ _ hx
    obtain ⟨y, rfl⟩ := hs.m y hy
    obtain ⟨z, rfl⟩ := hgf z hz
    rw [h1, XR.lit_eq, XR.sub_fin, XR.mul_fin, XR.mul_fin, XR.add_fin]
    exact ⟨_, rfl⟩
  have hv' : AllNonneg s'.v := by
    rw [hv]; intro x hx
    obtain ⟨y, hy, z, hz, rfl⟩ := mem_zipWith _ _ _ _ hx
    obtain ⟨y, hy0, rfl⟩ := hs.v y hy
    obtain ⟨z, rfl⟩ := hgf z hz
    rw [h2, XR.lit_eq, XR.sub_fin, XR.mul_fin, XR.mul_fin, XR.mul_fin, XR.add_fin]
    refine ⟨_, ?_, rfl⟩
    have : 0 ≤ ((1:ℚ):ℝ) - b2 := by push_cast; linarith [hb2.2]
    exact add_nonneg (mul_nonneg hb2.1 hy0) (mul_nonneg this (mul_self_nonneg _))
  obtain ⟨t1, ht1, ht1', ht1e⟩ := hs.b1t
  obtain ⟨t2, ht2, ht2', ht2e⟩ := hs.b2t
  refine ⟨hm', hv', ?_, ?_, ?_, ?_⟩
  · refine ⟨t1 * b1, mul_nonneg ht1 hb1.1, ?_, by rw [hb1t, ht1e, h1, XR.mul_fin]⟩
    nlinarith [hb1.1, hb1.2]
  · refine ⟨t2 * b2, mul_nonneg ht2 hb2.1, ?_, by rw [hb2t, ht2e, h2, XR.mul_fin]⟩
    nlinarith [hb2.1, hb2.2]
  · rw [hp]
    apply AllFin_clampIf
    intro x hx
    obtain ⟨m, hm0, v, hv0, p, hp0, rfl⟩ := mem_adamCoords _ _ _ _ _ _ _ hx
    obtain ⟨m, rfl⟩ := hm' m hm0
    obtain ⟨v, hv1, rfl⟩ := hv' v hv0
    obtain ⟨p, rfl⟩ := hs.params p hp0
    unfold adamCoord
    rw [ht1e, ht2e, ha, XR.lit_eq, XR.lit_eq, XR.sub_fin, XR.sub_fin, XR.div_fin (by push_cast; linarith),
      XR.div_fin (by push_cast; linarith), XR.sqrt_fin, XR.mul_fin, XR.add_fin, XR.div_fin, XR.add_fin]
    · exact ⟨_, rfl⟩
    · have := Real.sqrt_nonneg (v / (((1:ℚ):ℝ) - t2))
      have h3 : (0:ℝ) < ((1/100000000 : ℚ) : ℝ) := by norm_num
      linarith
    · apply div_nonneg hv1; push_cast; linarith
  · rw [ht]
    intro q hq
    rcases List.mem_append.1 hq with hq | hq
    · exact hs.trace q hq
    · simp only [List.mem_singleton] at hq; subst hq; exact hs.params

/-! ### Rprop on exact reals: every move is uphill -/

theorem clampCoord_of_box {r : ℝ} (h0 : 0 ≤ r) (h1 : r ≤ 1) : clampCoord (XR.fin r) = XR.fin r := by
  unfold clampCoord
  have a : lt (XR.fin r) (lit 0) = false := by
    rw [XR.lit_eq]; rw [Bool.eq_false_iff]; simp only [ne_eq, XR.lt_fin]; push_cast; linarith
  have b : lt (lit 1) (XR.fin r) = false := by
    rw [XR.lit_eq]; rw [Bool.eq_false_iff]; simp only [ne_eq, XR.lt_fin]; push_cast; linarith
  simp [a, b]

theorem clampCoord_fin_eq (r : ℝ) : clampCoord (XR.fin r) = XR.fin (max 0 (min r 1)) := by
  rcases lt_or_ge r 0 with h | h
  · unfold clampCoord
    have a : lt (XR.fin r) (lit 0) = true := by rw [XR.lit_eq, XR.lt_fin]; push_cast; exact h
    have b : lt (lit 1 : XR) (lit 0) = false := LawfulCmp.lt_asymm' LawfulArith.lit_zero_lt_one
    simp only [a, b, if_true, Bool.false_eq_true, if_false]
    rw [XR.lit_eq, min_eq_left (by linarith), max_eq_left h.le]; push_cast; rfl
  · rcases lt_or_ge 1 r with h1 | h1
    · unfold clampCoord
      have a : lt (XR.fin r) (lit 0) = false := by
        rw [XR.lit_eq]; rw [Bool.eq_false_iff]; simp only [ne_eq, XR.lt_fin]; push_cast; linarith
      have b : lt (lit 1) (XR.fin r) = true := by rw [XR.lit_eq, XR.lt_fin]; push_cast; exact h1
      simp only [a, b, if_true, Bool.false_eq_true, if_false]
      rw [XR.lit_eq, min_eq_right h1.le, max_eq_right (by norm_num)]; push_cast; rfl
    · rw [clampCoord_of_box h h1, min_eq_left h1, max_eq_right h]

theorem XR.neg_lt_zero (a : XR) : lt (-a) (lit 0) = lt (lit 0) a := by
  cases a with
  | nan => rfl
  | ninf => rfl
  | pinf => rfl
  | fin r =>
    rw [Bool.eq_iff_iff]
    change lt (XR.fin (-r)) (XR.fin _) = true ↔ lt (XR.fin _) (XR.fin r) = true
    rw [XR.lt_fin, XR.lt_fin]; push_cast; constructor <;> intro h <;> linarith

theorem XR.zero_lt_neg (a : XR) : lt (lit 0) (-a) = lt a (lit 0) := by
  cases a with
  | nan => rfl
  | ninf => rfl
  | pinf => rfl
  | fin r =>
    rw [Bool.eq_iff_iff]
    change lt (XR.fin _) (XR.fin (-r)) = true ↔ lt (XR.fin r) (XR.fin _) = true
    rw [XR.lt_fin, XR.lt_fin]; push_cast; constructor <;> intro h <;> linarith

/-- One coordinate move is uphill, for a box point (bounded) or any real point (unbounded). -/
theorem rpropCoord_uphill (b : Bool) (gg a : XR) {d : XR} {p : ℝ} (hd : GoodDelta d)
    (hp : b = true → 0 ≤ p ∧ p ≤ 1) :
    ∃ r : ℝ, (rpropCoord b gg (-a) d (XR.fin p)).2.2 = XR.fin r ∧ MovesUphill a (XR.fin p) (XR.fin r) ∧
      (b = true → 0 ≤ r ∧ r ≤ 1) := by
  have hd' := rpropCoord_delta b gg (-a) (XR.fin p) hd
  -- the new delta and the effective gradient
  obtain ⟨d', g', hd1, hg1, hres⟩ : ∃ d' g' : XR, GoodDelta d' ∧ (g' = -a ∨ g' = lit 0) ∧
      (rpropCoord b gg (-a) d (XR.fin p)).2.2 =
        (if b then clampCoord (rawCoord g' d' (XR.fin p)) else rawCoord g' d' (XR.fin p)) := by
    by_cases h1 : lt (lit 0) gg = true
    · refine ⟨stdMin (d * lit (12/10)) (lit 50), -a, hd.grow, Or.inl rfl, ?_⟩
      cases b <;> simp [rpropCoord, clampCoord, rawCoord, h1]
    · by_cases h2 : lt gg (lit 0) = true
      · refine ⟨stdMax (d * lit (1/2)) (lit (1/1000000)), lit 0, hd.shrink, Or.inr rfl, ?_⟩
        cases b <;> simp [rpropCoord, clampCoord, rawCoord, h1, h2]
      · refine ⟨d, -a, hd, Or.inl rfl, ?_⟩
        cases b <;> simp [rpropCoord, clampCoord, rawCoord, h1, h2]
  obtain ⟨e, he⟩ := (XR.isFinite_iff d').1 hd1.finite
  have he0 : 0 ≤ e := by
    have := hd1.1
    rw [he, XR.lit_eq, XR.le_fin] at this
    push_cast at this; linarith
  obtain ⟨sg, hsg⟩ : ∃ sg : ℤ, sg = -(signum g') := ⟨_, rfl⟩
  have hraw : rawCoord g' d' (XR.fin p) = XR.fin (p + (sg : ℝ) * e) := by
    unfold rawCoord; rw [he, XR.lit_eq, XR.mul_fin, XR.add_fin, hsg]; push_cast; rfl
  have hfinal : ∃ r : ℝ, (rpropCoord b gg (-a) d (XR.fin p)).2.2 = XR.fin r ∧
      (0 ≤ sg → p ≤ r) ∧ (sg ≤ 0 → r ≤ p) ∧ (b = true → 0 ≤ r ∧ r ≤ 1) := by
    rw [hres, hraw]
    cases b with
    | false =>
      refine ⟨p + (sg:ℝ) * e, by simp, ?_, ?_, by simp⟩
      · intro h; have : (0:ℝ) ≤ sg := by exact_mod_cast h
        nlinarith
      · intro h; have : (sg:ℝ) ≤ 0 := by exact_mod_cast h
        nlinarith
    | true =>
      obtain ⟨h0, h1⟩ := hp rfl
      refine ⟨max 0 (min (p + (sg:ℝ) * e) 1), by simp [clampCoord_fin_eq], ?_, ?_,
        fun _ => ⟨le_max_left _ _, max_le (by norm_num) (min_le_right _ _)⟩⟩
      · intro h; have : (0:ℝ) ≤ sg := by exact_mod_cast h
        apply le_max_of_le_right; apply _root_.le_min _ h1; nlinarith
      · intro h; have : (sg:ℝ) ≤ 0 := by exact_mod_cast h
        apply max_le h0
        apply (min_le_left _ _).trans; nlinarith
  obtain ⟨r, hr, hup, hdown, hrb⟩ := hfinal
  refine ⟨r, hr, ?_, hrb⟩
  have h00 : lt (lit 0 : XR) (lit 0) = false := LawfulCmp.lt_irrefl' _
  have hsgval : sg = -(boolToInt (lt (lit 0) g') - boolToInt (lt g' (lit 0))) := hsg
  refine ⟨?_, ?_, ?_⟩
  · intro ha
    rw [XR.le_fin]
    apply hup
    rcases hg1 with rfl | rfl
    · rw [XR.zero_lt_neg, XR.neg_lt_zero, ha, LawfulCmp.lt_asymm' ha] at hsgval
      rw [hsgval]; decide
    · rw [h00] at hsgval; rw [hsgval]; decide
  · intro ha
    rw [XR.le_fin]
    apply hdown
    rcases hg1 with rfl | rfl
    · rw [XR.zero_lt_neg, XR.neg_lt_zero, ha, LawfulCmp.lt_asymm' ha] at hsgval
      rw [hsgval]; decide
    · rw [h00] at hsgval; rw [hsgval]; decide
  · intro h1 h2
    have hs0 : sg = 0 := by
      rcases hg1 with rfl | rfl
      · rw [XR.zero_lt_neg, XR.neg_lt_zero, h1, h2] at hsgval
        rw [hsgval]; decide
      · rw [h00] at hsgval; rw [hsgval]; decide
    have : r = p := le_antisymm (hdown hs0.le) (hup hs0.ge)
    rw [this]

theorem XR.neg_neg' (x : XR) : - -x = x := by
  cases x with
  | fin r => show Xt.fin (- -r) = Xt.fin r; rw [neg_neg]
  | nan => rfl
  | ninf => rfl
  | pinf => rfl

theorem rpropCoords_get [Scalar α] (b : Bool) : ∀ (gg g d p : List α) (j : Nat) (x y : α),
    p[j]? = some x → ((rpropCoords b gg g d p).map (·.2.2))[j]? = some y →
    ∃ u v w, u ∈ gg ∧ g[j]? = some v ∧ d[j]? = some w ∧ y = (rpropCoord b u v w x).2.2
  | [], g, d, p, j, x, y, _, h => by simp [rpropCoords] at h
  | _ :: gg, [], d, p, j, x, y, _, h => by simp [rpropCoords] at h
  | _ :: gg, _ :: g, [], p, j, x, y, _, h => by simp [rpropCoords] at h
  | _ :: gg, _ :: g, _ :: d, [], j, x, y, h0, h => by simp at h0
  | a :: gg, v :: g, w :: d, z :: p, 0, x, y, h0, h => by
    simp only [List.getElem?_cons_zero, Option.some.injEq] at h0
    subst h0
    simp only [rpropCoords, List.map_cons, List.getElem?_cons_zero, Option.some.injEq] at h
    exact ⟨a, v, w, by simp, by simp, by simp, h.symm⟩
  | a :: gg, v :: g, w :: d, z :: p, j + 1, x, y, h0, h => by
    simp only [List.getElem?_cons_succ] at h0
    simp only [rpropCoords, List.map_cons, List.getElem?_cons_succ] at h
    obtain ⟨u, v', w', hu, hv, hw, rfl⟩ := rpropCoords_get b gg g d p j x y h0 h
    exact ⟨u, v', w', by simp [hu], by simpa using hv, by simpa using hw, rfl⟩

end Limbo
