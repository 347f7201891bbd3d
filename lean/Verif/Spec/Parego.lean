import Mathlib.Order.Bounds.Basic
import Verif.Model.Parego
import Verif.Spec.GpHist

/-! Specification of the ParEGO model. -/

namespace Limbo

/-- `v` is the augmented Tchebycheff value of the objectives `x` for the (not yet normalised) weights `r`: with `w i = r i / Σ r`,
the largest `w i * x i` plus `rho` times the sum of all of them. -/
def AugTchebycheff (rho : ℝ) (r x : List ℝ) (v : ℝ) : Prop :=
  r.length = x.length ∧ ∃ m, IsGreatest {p | ∃ i < x.length, p = r.getD i 0 / r.sum * x.getD i 0} m ∧
    v = m + rho * ((List.range x.length).map fun i => r.getD i 0 / r.sum * x.getD i 0).sum

namespace Parego

/-- What the user of a ParEGO model has told it: samples, vector-valued observations, and the random vector drawn by the last `compute` or
`add_sample`. -/
structure Abs where
  xs : List (List ℝ)
  ys : List (List ℝ)
  r : List ℝ

/-- How each call changes it. -/
def Abs.step (A : Abs) (op : Op) (c : Ctx) : Abs :=
  match op with
  | .compute xs ys => ⟨xs, ys, c.randomVector (ys.headD []).length⟩
  | .add x y => ⟨A.xs ++ [x], A.ys ++ [y], c.randomVector ((A.ys ++ [y]).headD []).length⟩
  | .inherited _ => A

/-- ... and each sequence of calls. -/
def Abs.run (A : Abs) (ops : List (Op × Ctx)) : Abs := ops.foldl (fun A o => A.step o.1 o.2) A

/-- Calls that a user of the model should restrict to: of the inherited functions, those that do not replace the data behind the back of
the derived class. -/
def Op.Proper : Op → Prop
  | .inherited (.compute _ _ _) | .inherited (.add _ _) | .inherited (.load _ _) => False
  | _ => True

end Parego

end Limbo
