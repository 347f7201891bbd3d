import Mathlib.Analysis.Real.Sqrt
import Mathlib.Algebra.BigOperators.Fin

/-! Specification vocabulary for the linear algebra of the Gaussian process. -/

namespace Limbo

open Finset

/-- The leading `n × n` block of `K` is symmetric positive definite. -/
structure PD (n : Nat) (K : Nat → Nat → ℝ) : Prop where
  symm : ∀ i < n, ∀ j < n, K i j = K j i
  pos : ∀ x : Nat → ℝ, (∃ i < n, x i ≠ 0) → 0 < ∑ i ∈ range n, ∑ j ∈ range n, x i * K i j * x j

/-- `L` is the Cholesky factor of the leading `n × n` block of `K`: lower triangular, positive diagonal, `L Lᵀ = K`. -/
structure IsChol (n : Nat) (L K : Nat → Nat → ℝ) : Prop where
  diag : ∀ i < n, 0 < L i i
  lower : ∀ i < n, ∀ j < n, i < j → L i j = 0
  prod : ∀ i < n, ∀ j < n, ∑ k ∈ range n, L i k * L j k = K i j

/-- `x` solves `K x = b` (size `n`). -/
def Solves (n : Nat) (K : Nat → Nat → ℝ) (x b : Nat → ℝ) : Prop := ∀ i < n, ∑ j ∈ range n, K i j * x j = b i

/-- Contract of `Eigen::LLT<MatrixXd>(K).matrixL()`: on symmetric positive definite matrices it returns the Cholesky factor. -/
def LltContract (llt : Nat → (Nat → Nat → ℝ) → Nat → Nat → ℝ) : Prop := ∀ n K, PD n K → IsChol n (llt n K) K

end Limbo
