import Verif.Spec.Rkhs
import Verif.Model.Bo
import Verif.Basic.Xt

/-! Vocabulary for the convergence of Bayesian optimization: all evaluations are exact values of one function. -/

namespace Limbo

variable {M : Type}

/-- An objective with `d` inputs whose value at a point is `f` of that point. -/
def Evaluates (d : Nat) (f : List ℝ → ℝ) (sf : StateFun XR M) : Prop :=
  sf.dimIn = d ∧ ∀ tr v, v.length = d → sf.call tr (v.map XR.fin) = .ret [XR.fin (f v)]

/-- A call of the user who optimizes `f`, always with the aggregator `afun`; evaluations given by hand are values of `f` too. -/
def OptimizesOp (d : Nat) (f : List ℝ → ℝ) (afun : List XR → XR) : BoOp XR M → Prop
  | .optimize sf a _ _ => Evaluates d f sf ∧ a = afun
  | .addNewSample s w => ∀ v : List ℝ, v.length = d → s = v.map XR.fin → w = [XR.fin (f v)]
  | .evalAndAdd sf _ => Evaluates d f sf

end Limbo
