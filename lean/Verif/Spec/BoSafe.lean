import Verif.Spec.BoMultiGp
import Verif.Spec.BoSparse

/-! Specification of "the model is ready": what the components of the optimizer may rely on when they use a `MultiGP` or a `SparsifiedGP`. -/

namespace Limbo

variable {E : GpEnv}

/-- The `MultiGP` has `din` inputs and `dout` outputs, holds the data `d`, and answers every question: the variances (and the means, if the mean
function does not depend on the data) are those of the posterior. -/
def MultiGpReady (din dout : Nat) (g : MultiGpState E) (d : List (List XR × List XR)) : Prop :=
  g.dimIn = din ∧ g.dimOut = dout ∧ g.models.length = dout ∧ MultiGpHolds g d ∧ (E.M.IgnoresData → MultiGpMean g d) ∧
    ∀ v, ∃ m σ, MultiGp.query g v = some (m, σ) ∧ m.length = dout ∧ σ.length = dout

/-- The hyper-parameter optimizer of a `MultiGP` does not fail on a `MultiGP` obtained by calls of its interface that holds data and whose
matrices and weights are up to date. -/
def MultiHpOk (hp : MultiHp E) : Prop :=
  ∀ ind xs ys r g, xs ≠ [] → MgReach E ind ⟨xs, ys, r, true, true, true, true⟩ g → hp.run g ≠ none

/-- The hyper-parameter optimizer of a GP does not fail on an up-to-date GP. -/
def HpOk (hp : HpFunctor E) : Prop := ∀ A g, GpReach E A g → A.UpToDate → A.i = true → hp.run g ≠ none

/-- A call whose objective announces the number of outputs it has. -/
def AnnouncesOutputs {M : Type} (dout : Nat) : BoOp XR M → Prop
  | .optimize f _ _ _ => f.dimOut = dout
  | _ => True

end Limbo
