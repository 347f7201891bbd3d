import Verif.Basic.Scalar

/-! Specification vocabulary for Pareto fronts (maximisation), without reference to the model. -/

namespace Limbo

variable {α : Type} [Scalar α]

/-- `a` is at least as good as `b` everywhere and better somewhere. -/
def Dominates (a b : List α) : Prop :=
  (∀ (i : Nat) x y, a[i]? = some x → b[i]? = some y → le y x = true) ∧ ∃ (i : Nat) (x y : α), a[i]? = some x ∧ b[i]? = some y ∧ lt y x = true

/-- Equal as IEEE values in every coordinate (`-0 == +0`). -/
def SameObjs (a b : List α) : Prop :=
  a.length = b.length ∧ ∀ (i : Nat) x y, a[i]? = some x → b[i]? = some y → le y x = true ∧ le x y = true

/-- Lexicographically greater: at the first coordinate where they differ, `a` is larger. -/
def LexGreater (a b : List α) : Prop :=
  ∃ (i : Nat) (x y : α), a[i]? = some x ∧ b[i]? = some y ∧ lt y x = true ∧
    ∀ (j : Nat) (u v : α), j < i → a[j]? = some u → b[j]? = some v → le u v = true ∧ le v u = true

/-- A population of objective vectors of dimension `d` without NaN. -/
def GoodObjs (d : Nat) (v : List α) : Prop := v.length = d ∧ ∀ x ∈ v, isNaN x = false

end Limbo
