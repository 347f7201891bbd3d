import Verif.Spec.BoGp
import Verif.Spec.Acqui

/-! Specification vocabulary for "the next point maximises the acquisition function on the grid". -/

namespace Limbo

open Gp

variable {E : GpEnv}

/-- `v` is a point of the grid `{0, 1/b, ..., 1}^d`. -/
def GridPt (b d : Nat) (v : List ℝ) : Prop := v.length = d ∧ ∀ c ∈ v, ∃ k : ℕ, k ≤ b ∧ c = (k : ℝ) / b

/-- The GP `g` predicts at every point `v` the mean `mean v` (a vector of `dim_out()` numbers) with variance `var v`. -/
def Predicts (g : GpState E) (mean : List ℝ → List ℝ) (var : List ℝ → ℝ) : Prop :=
  ∀ v, ∃ m, query g v = some (m, var v) ∧ mean v = (List.range g.dimOut.toNat).map m

/-- `value` is the expected improvement over the best prediction at a sample (plus the jitter), for aggregated predictions: zero without
data or where the standard deviation is below `1e-10`. -/
structure IsEi (g : GpState E) (mean : List ℝ → List ℝ) (var : List ℝ → ℝ) (F : List ℝ → ℝ) (jitter : ℝ) (value : List ℝ → ℝ) : Prop where
  zero : ∀ v, samplesOf g = [] ∨ √(var v) < 1e-10 → value v = 0
  ei : samplesOf g ≠ [] → ∃ fmax, IsGreatest {y | ∃ s ∈ samplesOf g, y = F (mean s)} fmax ∧
    ∀ v, 1e-10 ≤ √(var v) → value v = expectedExcess (F (mean v)) (var v) (fmax + jitter)

end Limbo
