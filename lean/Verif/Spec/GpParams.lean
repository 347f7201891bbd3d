import Verif.Model.Gp

/-! Vocabulary: which hyper-parameters a sequence of calls sets. -/

namespace Limbo.Gp

/-- Data given in this call have `din` inputs and `dout` outputs; nothing is loaded from an archive. -/
def Op.Fits (din dout : Nat) : Op → Prop
  | .compute xs ys _ => (xs.headD []).length = din ∧ (ys.headD []).length = dout
  | .add x y => x.length = din ∧ y.length = dout
  | .load _ _ => False
  | _ => True

/-- The call gives data to the GP. -/
def Op.IsData : Op → Prop
  | .compute _ _ _ => True
  | .add _ _ => True
  | _ => False

/-- The kernel parameters set by the calls, in order. -/
def kernelSets (ops : List (Op × (Nat → Nat → ℝ))) : List (List ℝ) :=
  ops.filterMap fun o => match o.1 with
    | .setKernelParams p => some p
    | _ => none

/-- The mean parameters set by the calls, in order. -/
def meanSets (ops : List (Op × (Nat → Nat → ℝ))) : List (List ℝ) :=
  ops.filterMap fun o => match o.1 with
    | .setMeanParams p => some p
    | _ => none

end Limbo.Gp
