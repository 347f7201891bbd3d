import Verif.Model.Tools
import Verif.Lemmas.XtLaws
import Verif.Lemmas.F64Laws
import Mathlib.Data.Sign.Basic

/-! # C56 — small numeric tools -/

namespace Limbo

variable {α : Type}
open LawfulCmp

/-- `signum` is the sign for every non-NaN number, and 0 for NaN. -/
theorem C56_signum [Scalar α] [LawfulCmp α] (x : α) (h0 : isNaN (lit 0 : α) = false) :
    (lt (lit 0) x = true → signum x = 1) ∧ (lt x (lit 0) = true → signum x = -1) ∧
    (le (lit 0) x = true → le x (lit 0) = true → signum x = 0) ∧ (isNaN x = true → signum x = 0) := by
  unfold signum boolToInt
  refine ⟨fun h => ?_, fun h => ?_, fun h h' => ?_, fun h => ?_⟩
  · rw [h, lt_asymm' h]; rfl
  · rw [h, lt_asymm' h]; rfl
  · have hx := (not_nan_of_le h).2
    rw [(not_lt_iff_le h0 hx).2 h', (not_lt_iff_le hx h0).2 h]; rfl
  · rw [nan_lt_left _ _ h, nan_lt_right _ _ h]; rfl

/-- Exact arithmetic: `signum` is the mathematical sign. -/
theorem C56_signum_real (x : ℝ) : signum (XR.fin x) = SignType.sign x := by
  unfold signum boolToInt
  rw [XR.lit_eq]
  rcases lt_trichotomy x 0 with h | h | h
  · have h1 : lt (XR.fin ((0:ℚ):ℝ)) (XR.fin x) = false := by
      rw [Bool.eq_false_iff]; simp only [ne_eq, XR.lt_fin, not_lt]; push_cast; exact h.le
    have h2 : lt (XR.fin x) (XR.fin ((0:ℚ):ℝ)) = true := by rw [XR.lt_fin]; simpa using h
    rw [h1, h2, sign_neg h]; rfl
  · have h1 : lt (XR.fin ((0:ℚ):ℝ)) (XR.fin x) = false := by
      rw [Bool.eq_false_iff]; simp only [ne_eq, XR.lt_fin, not_lt]; push_cast; exact h.le
    have h2 : lt (XR.fin x) (XR.fin ((0:ℚ):ℝ)) = false := by
      rw [Bool.eq_false_iff]; simp only [ne_eq, XR.lt_fin, not_lt]; push_cast; exact h.ge
    rw [h1, h2, h, sign_zero]; rfl
  · have h1 : lt (XR.fin x) (XR.fin ((0:ℚ):ℝ)) = false := by
      rw [Bool.eq_false_iff]; simp only [ne_eq, XR.lt_fin, not_lt]; push_cast; exact h.le
    have h2 : lt (XR.fin ((0:ℚ):ℝ)) (XR.fin x) = true := by rw [XR.lt_fin]; simpa using h
    rw [h1, h2, sign_pos h]; rfl

/-- `signum` on unsigned types. -/
theorem C56_signum_unsigned (x : Nat) : (x = 0 → signumUnsigned x = 0) ∧ (0 < x → signumUnsigned x = 1) := by
  unfold signumUnsigned boolToInt
  refine ⟨fun h => by simp [h], fun h => by simp [h]⟩

/-- `is_nan_or_inf(v)` iff some component is NaN or infinite. -/
theorem C56_is_nan_or_inf [Scalar α] (v : List α) :
    isNanOrInf v = true ↔ ∃ x ∈ v, isNaN x = true ∨ isInf x = true := by
  induction v with
  | nil => simp [isNanOrInf]
  | cons x xs ih =>
    simp only [isNanOrInf]
    split_ifs with h
    · simp only [true_iff]
      refine ⟨x, by simp, ?_⟩
      simpa [or_comm] using h
    · rw [ih]
      simp only [Bool.or_eq_true, not_or, Bool.not_eq_true] at h
      constructor
      · rintro ⟨y, hy, hh⟩; exact ⟨y, by simp [hy], hh⟩
      · rintro ⟨y, hy, hh⟩
        rcases List.mem_cons.1 hy with rfl | hy
        · rw [h.1, h.2] at hh; simp at hh
        · exact ⟨y, hy, hh⟩

/-- `make_vector(x)` has size 1 and component `x`. -/
theorem C56_make_vector (x : α) : (makeVector x).length = 1 ∧ (makeVector x)[0]? = some x := ⟨rfl, rfl⟩

/-- `BO_PARAM_ARRAY` / `BO_PARAM_VECTOR` with up to 62 elements: the size, every element, and nothing else. -/
theorem C56_param_array (args : List Int) (h : args.length ≤ 62) :
    paramArraySize args = some (args.length : Int) ∧ (∀ i, paramArrayGet args i = args[i]?) ∧ paramVector args = some args := by
  have hn : vaNArg args = some (args.length : Int) := by
    unfold vaNArg
    rw [List.getElem?_append_right (by simp; omega)]
    have : 63 - (0 :: args).length = 62 - args.length := by
      rw [List.length_cons]; omega
    rw [this]
    unfold rseqN
    rw [List.getElem?_map, List.getElem?_range (by omega)]
    simp only [Option.map_some, Option.some.injEq]
    omega
  refine ⟨hn, fun i => ?_, ?_⟩
  · simp only [paramArrayGet, hn]
    split_ifs with hi
    · rfl
    · rw [List.getElem?_eq_none (by omega)]
  · simp [paramVector, hn]

/-- With 63 or more elements the count is wrong: it is read from the 63rd element. -/
theorem C56_param_array_limit (args : List Int) (h : 63 ≤ args.length) :
    ∃ a, args[62]? = some a ∧ paramArraySize args = some (a - 1) := by
  refine ⟨args[62], List.getElem?_eq_getElem (by omega), ?_⟩
  unfold paramArraySize vaNArg
  rw [List.getElem?_append_left (by simp; omega), List.getElem?_cons_succ, List.getElem?_eq_getElem (by omega)]
  rfl

example : signum (F64.of (-3)) = -1 ∧ signum F64.nan = 0 ∧ isNanOrInf [F64.of 1, F64.nan] = true := by decide +kernel
example : paramVector [4, 5, 6] = some [4, 5, 6] ∧ paramArrayGet [4, 5, 6] 1 = some 5 ∧ paramArrayGet [4, 5, 6] 3 = none := by decide
example : paramArraySize (List.replicate 63 10) = some 9 := by decide

end Limbo
