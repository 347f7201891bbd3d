import Mathlib.Data.Set.Basic

/-! Specification vocabulary for the parallel tools (no reference to the model). -/

namespace Limbo

/-- `comp` is a strict weak order: what the C++ standard requires of a comparison functor. -/
structure StrictWeak {T : Type} (comp : T → T → Bool) : Prop where
  irrefl : ∀ a, comp a a = false
  trans : ∀ a b c, comp a b = true → comp b c = true → comp a c = true
  negTrans : ∀ a b c, comp a b = false → comp b c = false → comp a c = false

/-- Two elements tie. -/
def Ties {T : Type} (comp : T → T → Bool) (a b : T) : Prop := comp a b = false ∧ comp b a = false

/-- The list is sorted for `comp` (no later element strictly precedes an earlier one). -/
def SortedFor {T : Type} (comp : T → T → Bool) (l : List T) : Prop :=
  l.Pairwise (fun a b => comp b a = false)

/-- An action on a memory `Loc → V` that reads only `R` and writes only `W`. -/
structure Footprint {Loc V : Type} (a : (Loc → V) → (Loc → V)) (R W : Set Loc) : Prop where
  frame : ∀ m l, l ∉ W → a m l = m l
  reads : ∀ m m', (∀ l ∈ R, m l = m' l) → ∀ l ∈ W, a m l = a m' l

end Limbo
