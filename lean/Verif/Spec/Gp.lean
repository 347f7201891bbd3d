import Mathlib.LinearAlgebra.Matrix.NonsingularInverse
import Mathlib.Analysis.Real.Pi.Bounds
import Verif.Model.Kernel

/-!
What a Gaussian-process regression model should compute, in textbook form.

The data are `n` inputs `xs` and `n` observation vectors `ys`.  `k` and `m` are the covariance and mean functions, `s` the variance
added to the diagonal of the covariance matrix.
-/

namespace Limbo

open Matrix

/-- `n ≥ 1` inputs of dimension `din` and as many observations of dimension `dout`. -/
structure DataSet (xs ys : List (List ℝ)) (din dout : Nat) : Prop where
  nonempty : xs ≠ []
  same : ys.length = xs.length
  inputs : ∀ x ∈ xs, x.length = din
  outputs : ∀ y ∈ ys, y.length = dout
  din_pos : 0 < din
  dout_pos : 0 < dout

/-- A covariance function on vectors of length `d`: symmetric, and all its Gram matrices are positive semi-definite. -/
structure Covariance (k : List ℝ → List ℝ → ℝ) (d : Nat) : Prop where
  symm : ∀ x y, x.length = d → y.length = d → k x y = k y x
  psd : ∀ xs : List (List ℝ), (∀ x ∈ xs, x.length = d) → ∀ c : Fin xs.length → ℝ, (0 : ℝ) ≤ ∑ i, ∑ j, c i * k xs[i] xs[j] * c j

/-- `K + s I`. -/
def gramM (k : List ℝ → List ℝ → ℝ) (s : ℝ) (xs : List (List ℝ)) : Matrix (Fin xs.length) (Fin xs.length) ℝ :=
  Matrix.of fun i j => k xs[i] xs[j] + if i = j then s else 0

/-- The vector `k(x_i, v)`. -/
def kvec (k : List ℝ → List ℝ → ℝ) (xs : List (List ℝ)) (v : List ℝ) : Fin xs.length → ℝ := fun i => k xs[i] v

/-- The centred observations: `y_i - m(x_i)`, component `c`. -/
def resid (m : List ℝ → Nat → ℝ) (xs ys : List (List ℝ)) (c : Nat) : Fin xs.length → ℝ := fun i => at' (ys.getD i []) c - m xs[i] c

/-- Posterior mean `m(v) + k(v)ᵀ (K + sI)⁻¹ (y - m(X))`, component `c` (Rasmussen & Williams, eq. 2.25 and 2.38). -/
noncomputable def postMean (k : List ℝ → List ℝ → ℝ) (m : List ℝ → Nat → ℝ) (s : ℝ) (xs ys : List (List ℝ)) (v : List ℝ) (c : Nat) : ℝ :=
  m v c + kvec k xs v ⬝ᵥ ((gramM k s xs)⁻¹ *ᵥ resid m xs ys c)

/-- Posterior variance of the latent function `k(v,v) - k(v)ᵀ (K + sI)⁻¹ k(v)` (Rasmussen & Williams, eq. 2.26). -/
noncomputable def postVar (k : List ℝ → List ℝ → ℝ) (s : ℝ) (xs : List (List ℝ)) (v : List ℝ) : ℝ :=
  k v v - kvec k xs v ⬝ᵥ ((gramM k s xs)⁻¹ *ᵥ kvec k xs v)

/-- The empirical mean of the observations, component `c`. -/
noncomputable def dataMeanOf (ys : List (List ℝ)) (c : Nat) : ℝ := (ys.map fun y => at' y c).sum / ys.length

/-- Gaussian log marginal likelihood of output `c`: `-½ rᵀ K⁻¹ r - ½ log det K - n/2 log 2π` (Rasmussen & Williams, eq. 2.30). -/
noncomputable def logMarginal (k : List ℝ → List ℝ → ℝ) (m : List ℝ → Nat → ℝ) (s : ℝ) (xs ys : List (List ℝ)) (c : Nat) : ℝ :=
  -(1 / 2) * (resid m xs ys c ⬝ᵥ ((gramM k s xs)⁻¹ *ᵥ resid m xs ys c)) - 1 / 2 * Real.log (gramM k s xs).det
    - xs.length / 2 * Real.log (2 * Real.pi)

end Limbo
