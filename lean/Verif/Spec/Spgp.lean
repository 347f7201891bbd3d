import Mathlib.LinearAlgebra.Matrix.NonsingularInverse
import Mathlib.Algebra.Order.Floor.Ring
import Mathlib.Analysis.Real.Pi.Bounds
import Mathlib.Analysis.SpecialFunctions.Log.Basic
import Verif.Model.Kernel

/-!
The sparse Gaussian process with pseudo-inputs in textbook form (E. Snelson, Z. Ghahramani, NIPS 2005): covariance function
`k(x, z) = c exp(-½ Σ_k b_k (x_k - z_k)²)`, pseudo-inputs `U`, inputs `X`, noise variance `sig`, a number `jit` added to the diagonal of
the covariance matrix of the pseudo-inputs.
-/

namespace Limbo

open Matrix

/-- Pseudo-inputs, inputs and parameters. -/
structure SpModel (m n d : Nat) where
  U : Matrix (Fin m) (Fin d) ℝ
  X : Matrix (Fin n) (Fin d) ℝ
  b : Fin d → ℝ
  c : ℝ
  sig : ℝ
  jit : ℝ

namespace SpModel
variable {m n d : Nat} (S : SpModel m n d)

/-- The covariance function. -/
noncomputable def k (x z : Fin d → ℝ) : ℝ := S.c * Real.exp (-(1 / 2) * ∑ a, S.b a * (x a - z a) ^ 2)

/-- `K_M`, with the jitter. -/
noncomputable def Kuu : Matrix (Fin m) (Fin m) ℝ := Matrix.of (fun i j => S.k (S.U i) (S.U j)) + S.jit • (1 : Matrix (Fin m) (Fin m) ℝ)

/-- `K_MN`. -/
noncomputable def Kun : Matrix (Fin m) (Fin n) ℝ := Matrix.of fun i j => S.k (S.U i) (S.X j)

/-- `k_x`: covariances of the pseudo-inputs with a point. -/
noncomputable def ku (x : Fin d → ℝ) (i : Fin m) : ℝ := S.k (S.U i) x

/-- `Λ + σ² I`: the part of the prior variance of each input that the pseudo-inputs do not explain, plus noise. -/
noncomputable def lam (j : Fin n) : ℝ := S.k (S.X j) (S.X j) - S.ku (S.X j) ⬝ᵥ (S.Kuu⁻¹ *ᵥ S.ku (S.X j)) + S.sig

/-- `Q_M = K_M + K_MN (Λ + σ² I)⁻¹ K_NM`. -/
noncomputable def QM : Matrix (Fin m) (Fin m) ℝ := S.Kuu + S.Kun * (diagonal S.lam)⁻¹ * S.Kunᵀ

/-- Predictive mean of a zero-mean process with residuals `r`: `k_xᵀ Q_M⁻¹ K_MN (Λ + σ² I)⁻¹ r`. -/
noncomputable def mean (r : Fin n → ℝ) (x : Fin d → ℝ) : ℝ := S.ku x ⬝ᵥ (S.QM⁻¹ *ᵥ (S.Kun *ᵥ ((diagonal S.lam)⁻¹ *ᵥ r)))

/-- Predictive variance: `k(x, x) - k_xᵀ (K_M⁻¹ - Q_M⁻¹) k_x + σ²`. -/
noncomputable def var (x : Fin d → ℝ) : ℝ := S.k x x - S.ku x ⬝ᵥ ((S.Kuu⁻¹ - S.QM⁻¹) *ᵥ S.ku x) + S.sig

/-- Covariance of the observations: `K_NM K_M⁻¹ K_MN + Λ + σ² I`. -/
noncomputable def cov : Matrix (Fin n) (Fin n) ℝ := S.Kunᵀ * S.Kuu⁻¹ * S.Kun + diagonal S.lam

/-- Negative log density of the residuals `r` under a centred normal distribution with that covariance. -/
noncomputable def nll (r : Fin n → ℝ) : ℝ :=
  1 / 2 * (r ⬝ᵥ (S.cov⁻¹ *ᵥ r)) + 1 / 2 * Real.log S.cov.det + n / 2 * Real.log (2 * Real.pi)

/-- The model described by a vector of hyper-parameters: the pseudo-inputs column by column, then the logarithms of `b`, `c` and `sig`. -/
noncomputable def ofVec (m : Nat) (X : Matrix (Fin n) (Fin d) ℝ) (jit : ℝ) (w : List ℝ) : SpModel m n d :=
  ⟨Matrix.of fun i a => w.getD (a * m + i) 0, X, fun a => Real.exp (w.getD (m * d + a) 0), Real.exp (w.getD ((m + 1) * d) 0),
    Real.exp (w.getD ((m + 1) * d + 1) 0), jit⟩

end SpModel

/-- Number of pseudo-inputs for `n` inputs: a percentage of `n`, rounded down, but at least `least`. -/
noncomputable def spCount (percent : ℝ) (least n : Nat) : Nat := max least ⌊percent * n / 100⌋₊

/-- The inputs as a matrix, one row per input. -/
def spInputs (n d : Nat) (xs : List (List ℝ)) : Matrix (Fin n) (Fin d) ℝ := Matrix.of fun i a => (xs.getD i []).getD a 0

/-- Average of the (one-dimensional) observations. -/
noncomputable def spAvgObs (ys : List (List ℝ)) (c : Nat) : ℝ := if c = 0 then (∑ i : Fin ys.length, (ys.getD i []).getD 0 0) / ys.length else 0

/-- Prior mean at a point, given the average observation. -/
noncomputable def spPriorMean (M : MeanImpl) (ys : List (List ℝ)) (v : List ℝ) : ℝ := M.op (M.new 1) v (spAvgObs ys) 0

/-- Observation minus prior mean. -/
noncomputable def spResid (M : MeanImpl) (n : Nat) (xs ys : List (List ℝ)) (i : Fin n) : ℝ := (ys.getD i []).getD 0 0 - spPriorMean M ys (xs.getD i [])

end Limbo
