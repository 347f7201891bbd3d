import Verif.Basic.Opt
import Verif.Basic.Xt

/-! Specification vocabulary for grids (no reference to the model). -/

namespace Limbo

variable {α : Type}

/-- `q` is a point of the grid `axis^d`. -/
def OnGrid (axis : List α) (d : Nat) (q : List α) : Prop := q.length = d ∧ ∀ x ∈ q, x ∈ axis

/-- The regular subdivision `0, 1/b, 2/b, ..., 1` of `[0,1]` (exact arithmetic). -/
noncomputable def regularAxis (b : Nat) : List XR := (List.range (b + 1)).map fun k : ℕ => XR.fin ((k : ℝ) / b)

end Limbo
