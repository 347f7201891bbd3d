import Verif.Model.Spgp
import Verif.Spec.Spgp

/-! Vocabulary for histories of calls on a sparse Gaussian process. -/

namespace Limbo.Spgp

/-- Effect of one call on the data. -/
def heldStep (D : List (List ℝ) × List (List ℝ)) : Op → List (List ℝ) × List (List ℝ)
  | .compute s o _ => (s, o)
  | .add x y _ => (D.1 ++ [x], D.2 ++ [y])
  | .recompute _ => D
  | .optimizeHyperparams _ => D

/-- The call runs the whole computation. -/
def Op.refits : Op → Bool
  | .optimizeHyperparams _ => false
  | _ => true

/-- The call gives the object its jitter (the member `_del`). -/
def Op.sets : Op → Bool
  | .compute _ _ _ => true
  | _ => false

/-- The random shuffle of a call. -/
def Op.perm : Op → Nat → Nat
  | .compute _ _ p => p
  | .add _ _ p => p
  | .recompute p => p
  | .optimizeHyperparams p => p

/-- Data given to the constructor. -/
def heldStart : Start → List (List ℝ) × List (List ℝ)
  | .default _ => ([], [])
  | .dims _ _ _ => ([], [])
  | .data _ s o => (s, o)

/-- So does this constructor. -/
def Start.sets : Start → Bool
  | .data _ _ _ => true
  | _ => false

/-- The data (inputs, observations) an object holds after a history of calls: `compute` replaces, `add_sample` appends. -/
def held (s : Start) (ops : List Op) : List (List ℝ) × List (List ℝ) := ops.foldl heldStep (heldStart s)

/-- `query` answers with the predictive mean (on top of the prior mean `mean0`) and variance of the sparse process `S` for the residuals `r`. -/
def Predicts {E : SpEnv} (st : SpState E) {m n d : Nat} (S : SpModel m n d) (mean0 : List ℝ → ℝ) (r : Fin n → ℝ) : Prop :=
  ∀ v : List ℝ, v.length = d → query st v = .ok (mean0 v + S.mean r (fun a => v.getD a 0), S.var fun a => v.getD a 0)

end Limbo.Spgp
