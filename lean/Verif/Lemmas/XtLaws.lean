import Verif.Basic.Xt
import Mathlib.Tactic.Linarith
import Mathlib.Tactic.Positivity

/-! Laws of `Xt K`, and the instances `LawfulArith XR`. -/

namespace Limbo

namespace Xt
variable {K : Type} [LinearOrder K]

theorem cmp_laws (S : Scalar (Xt K)) (h1 : S.lt = Xt.lt) (h2 : S.le = Xt.le) (h3 : S.isNaN = Xt.isNaN)
    (h4 : S.isInf = Xt.isInf) (h5 : S.negInf = Xt.ninf) : LawfulCmp (Xt K) where
  nan_lt_left a b := by rw [h1, h3]; cases a <;> simp [isNaN, lt]
  nan_lt_right a b := by rw [h1, h3]; cases b <;> cases a <;> simp [isNaN, lt]
  nan_le_left a b := by rw [h2, h3]; cases a <;> simp [isNaN, le]
  nan_le_right a b := by rw [h2, h3]; cases b <;> cases a <;> simp [isNaN, le]
  le_total a b := by
    rw [h2, h3]; cases a <;> cases b <;> simp [isNaN, le, _root_.le_total]
  le_trans a b c := by
    rw [h2]; cases a <;> cases b <;> cases c <;> simp [le]
    exact fun h h' => h.trans h'
  lt_eq a b := by
    rw [h1, h2, h3]; cases a <;> cases b <;> simp [isNaN, lt, le]
    rename_i x y
    by_cases h : y ≤ x <;> simp [h, not_lt.2, not_le.1]
  negInf_nan := by rw [h3, h5]; rfl
  negInf_le a := by rw [h2, h3, h5]; cases a <;> simp [isNaN, le]
  inf_not_nan a := by rw [h3, h4]; cases a <;> simp [isNaN, isInf]

end Xt

instance : LawfulCmp XR := Xt.cmp_laws (K := ℝ) (inferInstanceAs (Scalar XR))
  (by funext a b; show Xt.lt a b = Xt.lt a b; cases a <;> cases b <;> simp [Xt.lt])
  (by funext a b; show Xt.le a b = Xt.le a b; cases a <;> cases b <;> simp [Xt.le]) rfl rfl rfl

instance : LawfulCmp F64 := Xt.cmp_laws (K := ℚ) (inferInstanceAs (Scalar F64)) rfl rfl rfl rfl rfl

theorem XR.isFinite_iff (x : XR) : isFinite x = true ↔ ∃ r : ℝ, x = XR.fin r := by
  cases x with
  | nan => simp [isFinite, isNaN, Xt.isNaN, XR.fin]
  | ninf => simp [isFinite, isNaN, isInf, Xt.isNaN, Xt.isInf, XR.fin]
  | pinf => simp [isFinite, isNaN, isInf, Xt.isNaN, Xt.isInf, XR.fin]
  | fin r => exact ⟨fun _ => ⟨r, rfl⟩, fun _ => rfl⟩

@[simp] theorem XR.le_fin (a b : ℝ) : le (XR.fin a) (XR.fin b) = true ↔ a ≤ b := by
  simp [le, XR.fin, Xt.le]

@[simp] theorem XR.lt_fin (a b : ℝ) : lt (XR.fin a) (XR.fin b) = true ↔ a < b := by
  simp [lt, XR.fin, Xt.lt]

@[simp] theorem XR.isNaN_fin (a : ℝ) : isNaN (XR.fin a) = false := rfl
@[simp] theorem XR.isInf_fin (a : ℝ) : isInf (XR.fin a) = false := rfl
@[simp] theorem XR.isFinite_fin (a : ℝ) : isFinite (XR.fin a) = true := rfl
@[simp] theorem XR.add_fin (a b : ℝ) : XR.fin a + XR.fin b = XR.fin (a + b) := rfl
@[simp] theorem XR.sub_fin (a b : ℝ) : XR.fin a - XR.fin b = XR.fin (a - b) := by
  show Xt.fin (a + -b) = Xt.fin (a - b); rw [sub_eq_add_neg]
@[simp] theorem XR.mul_fin (a b : ℝ) : XR.fin a * XR.fin b = XR.fin (a * b) := rfl
@[simp] theorem XR.neg_fin (a : ℝ) : -XR.fin a = XR.fin (-a) := rfl
theorem XR.lit_eq (q : ℚ) : (lit q : XR) = XR.fin (q : ℝ) := rfl

instance : LawfulArith XR where
  lit_mono p q h := by rw [XR.lit_eq, XR.lit_eq, XR.le_fin]; exact_mod_cast h
  lit_zero_lt_one := by rw [XR.lit_eq, XR.lit_eq, XR.lt_fin]; norm_num
  lit_finite q _ := rfl
  finite_between a x b ha hb h1 h2 := by
    rw [XR.isFinite_iff] at *
    obtain ⟨a, rfl⟩ := ha; obtain ⟨b, rfl⟩ := hb
    cases x with
    | nan => simp [le, XR.fin, Xt.le] at h1
    | ninf => simp [le, XR.fin, Xt.le] at h1
    | pinf => simp [le, XR.fin, Xt.le] at h2
    | fin r => exact ⟨r, rfl⟩
  add_not_nan a b ha hb := by
    rw [XR.isFinite_iff] at ha
    obtain ⟨a, rfl⟩ := ha
    cases b with
    | nan => simp [isNaN, Xt.isNaN] at hb
    | ninf => rfl
    | pinf => rfl
    | fin r => rfl
  mul_not_nan a b ha hb := by
    rw [XR.isFinite_iff] at ha hb
    obtain ⟨a, rfl⟩ := ha; obtain ⟨b, rfl⟩ := hb
    rfl
  mul_mono a a' b b' h0 h1 h2 h3 ha hb := by
    rw [XR.isFinite_iff] at ha hb
    obtain ⟨x', rfl⟩ := ha; obtain ⟨y', rfl⟩ := hb
    rw [XR.lit_eq] at h0 h2
    cases a with
    | nan => simp [le, XR.fin, Xt.le] at h0
    | ninf => simp [le, XR.fin, Xt.le] at h0
    | pinf => simp [le, XR.fin, Xt.le] at h1
    | fin x =>
      cases b with
      | nan => simp [le, XR.fin, Xt.le] at h2
      | ninf => simp [le, XR.fin, Xt.le] at h2
      | pinf => simp [le, XR.fin, Xt.le] at h3
      | fin y =>
        change le (XR.fin (x * y)) (XR.fin (x' * y')) = true
        change le (XR.fin _) (XR.fin x) = true at h0
        change le (XR.fin _) (XR.fin y) = true at h2
        change le (XR.fin x) _ = true at h1
        change le (XR.fin y) _ = true at h3
        rw [XR.le_fin] at *
        push_cast at h0 h2
        exact mul_le_mul h1 h3 h2 (h0.trans h1)
  half_fifty := by rw [XR.lit_eq, XR.lit_eq, XR.mul_fin, XR.le_fin]; norm_num
  grow_min := by rw [XR.lit_eq, XR.lit_eq, XR.mul_fin, XR.le_fin]; norm_num

end Limbo
