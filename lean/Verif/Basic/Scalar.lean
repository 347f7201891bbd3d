import Mathlib.Data.Rat.Defs
import Mathlib.Algebra.Order.Field.Rat
import Mathlib.Algebra.Order.Group.Abs

/-!
# C++ `double` as an interface

`Scalar α` only *names* the operations the library performs on `double`; it has no laws.
Models written over `Scalar` are the same text whether the arithmetic is exact or rounded.

`LawfulCmp α` are the laws every IEEE-754 type has for comparisons: a comparison with a NaN is
`false`; on non-NaN values `<=` is a total preorder (not antisymmetric: `-0 <= +0 <= -0`).
`LawfulArith α` are the few arithmetic facts used: rounding of literals is monotone, and
finite operands never produce NaN under `+` and `*`.  Nothing is said about the accuracy of results.
-/

namespace Limbo

/-- Operations of C++ `double` (no laws).  `lit q` is the double written as the literal `q`
(in the source or after an `int -> double` conversion). -/
class Scalar (α : Type) extends Add α, Sub α, Mul α, Div α, Neg α where
  /-- `operator<` -/
  lt : α → α → Bool
  /-- `operator<=` -/
  le : α → α → Bool
  /-- `std::isnan` -/
  isNaN : α → Bool
  /-- `std::isinf` -/
  isInf : α → Bool
  /-- literal / integer conversion -/
  lit : ℚ → α
  /-- `-inf`, e.g. the value of `log(0)` -/
  negInf : α

/-- Operations that are left entirely uninterpreted in Level-A theorems. -/
class ScalarFn (α : Type) extends Scalar α where
  /-- `std::sqrt` -/
  sqrt : α → α
  /-- Eigen's `VectorXd::norm()` (summation order unspecified) -/
  norm : List α → α

export Scalar (lt le isNaN isInf lit negInf)

variable {α : Type}

/-- Neither NaN nor infinite. -/
def isFinite [Scalar α] (x : α) : Bool := !(isNaN x) && !(isInf x)

/-- IEEE-754 comparison laws. -/
class LawfulCmp (α : Type) [Scalar α] : Prop where
  nan_lt_left : ∀ a b : α, isNaN a = true → lt a b = false
  nan_lt_right : ∀ a b : α, isNaN b = true → lt a b = false
  nan_le_left : ∀ a b : α, isNaN a = true → le a b = false
  nan_le_right : ∀ a b : α, isNaN b = true → le a b = false
  le_total : ∀ a b : α, isNaN a = false → isNaN b = false → le a b = true ∨ le b a = true
  le_trans : ∀ a b c : α, le a b = true → le b c = true → le a c = true
  lt_eq : ∀ a b : α, isNaN a = false → isNaN b = false → lt a b = !(le b a)
  negInf_nan : isNaN (negInf : α) = false
  negInf_le : ∀ a : α, isNaN a = false → le negInf a = true
  inf_not_nan : ∀ a : α, isInf a = true → isNaN a = false

/-- The arithmetic facts used by Level-A theorems. -/
class LawfulArith (α : Type) [Scalar α] : Prop extends LawfulCmp α where
  lit_mono : ∀ p q : ℚ, p ≤ q → le (lit p : α) (lit q) = true
  lit_zero_lt_one : lt (lit 0 : α) (lit 1) = true
  lit_finite : ∀ q : ℚ, |q| ≤ 1000000 → isFinite (lit q : α) = true
  /-- a value between two finite values is finite -/
  finite_between : ∀ a x b : α, isFinite a = true → isFinite b = true →
    le a x = true → le x b = true → isFinite x = true
  add_not_nan : ∀ a b : α, isFinite a = true → isNaN b = false → isNaN (a + b) = false
  mul_not_nan : ∀ a b : α, isFinite a = true → isFinite b = true → isNaN (a * b) = false
  /-- rounded multiplication is monotone on non-negative finite operands -/
  mul_mono : ∀ a a' b b' : α, le (lit 0) a = true → le a a' = true → le (lit 0) b = true →
    le b b' = true → isFinite a' = true → isFinite b' = true → le (a * b) (a' * b') = true
  /-- `50 * 0.5 <= 50` -/
  half_fifty : le (lit 50 * lit (1/2)) (lit 50 : α) = true
  /-- `1e-6 <= 1e-6 * 1.2` -/
  grow_min : le (lit (1/1000000)) (lit (1/1000000) * lit (12/10) : α) = true

namespace LawfulCmp
variable [Scalar α] [LawfulCmp α]

theorem le_refl' (a : α) (h : isNaN a = false) : le a a = true := by
  rcases le_total a a h h with h | h <;> exact h

theorem not_nan_of_le {a b : α} (h : le a b = true) : isNaN a = false ∧ isNaN b = false := by
  refine ⟨?_, ?_⟩
  · cases ha : isNaN a with
    | false => rfl
    | true => rw [nan_le_left a b ha] at h; simp at h
  · cases hb : isNaN b with
    | false => rfl
    | true => rw [nan_le_right a b hb] at h; simp at h

theorem not_nan_of_lt {a b : α} (h : lt a b = true) : isNaN a = false ∧ isNaN b = false := by
  refine ⟨?_, ?_⟩
  · cases ha : isNaN a with
    | false => rfl
    | true => rw [nan_lt_left a b ha] at h; simp at h
  · cases hb : isNaN b with
    | false => rfl
    | true => rw [nan_lt_right a b hb] at h; simp at h

theorem le_of_lt {a b : α} (h : lt a b = true) : le a b = true := by
  obtain ⟨ha, hb⟩ := not_nan_of_lt h
  rw [lt_eq a b ha hb] at h
  rcases le_total a b ha hb with h' | h'
  · exact h'
  · rw [h'] at h; simp at h

theorem not_lt_iff_le {a b : α} (ha : isNaN a = false) (hb : isNaN b = false) :
    lt a b = false ↔ le b a = true := by
  rw [lt_eq a b ha hb]; cases le b a <;> simp

theorem le_of_not_lt {a b : α} (ha : isNaN a = false) (hb : isNaN b = false)
    (h : lt a b = false) : le b a = true := (not_lt_iff_le ha hb).1 h

theorem lt_irrefl' (a : α) : lt a a = false := by
  cases h : isNaN a with
  | true => exact nan_lt_left a a h
  | false => rw [lt_eq a a h h, le_refl' a h]; rfl

theorem lt_of_lt_of_le {a b c : α} (h1 : lt a b = true) (h2 : le b c = true) : lt a c = true := by
  obtain ⟨ha, hb⟩ := not_nan_of_lt h1
  obtain ⟨_, hc⟩ := not_nan_of_le h2
  rw [lt_eq a c ha hc]
  rw [lt_eq a b ha hb] at h1
  cases h : le c a with
  | false => rfl
  | true => rw [le_trans _ _ _ h2 h] at h1; simp at h1

theorem lt_of_le_of_lt {a b c : α} (h1 : le a b = true) (h2 : lt b c = true) : lt a c = true := by
  obtain ⟨hb, hc⟩ := not_nan_of_lt h2
  obtain ⟨ha, _⟩ := not_nan_of_le h1
  rw [lt_eq a c ha hc]
  rw [lt_eq b c hb hc] at h2
  cases h : le c a with
  | false => rfl
  | true => rw [le_trans _ _ _ h h1] at h2; simp at h2

theorem lt_trans' {a b c : α} (h1 : lt a b = true) (h2 : lt b c = true) : lt a c = true :=
  lt_of_lt_of_le h1 (le_of_lt h2)

theorem lt_asymm' {a b : α} (h : lt a b = true) : lt b a = false := by
  cases h' : lt b a with
  | false => rfl
  | true => have := lt_trans' h h'; rw [lt_irrefl'] at this; simp at this

end LawfulCmp

end Limbo
