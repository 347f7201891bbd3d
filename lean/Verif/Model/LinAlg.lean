import Mathlib.Analysis.Real.Sqrt
import Mathlib.Algebra.BigOperators.Fin

/-!
Dense real matrices the way the GP uses Eigen's: dynamic sizes, entries addressed by number, uninitialised entries after a resize.

Real numbers are exact here: rounding is not modelled in the Gaussian-process part (see DESIGN.md).
-/

namespace Limbo

open Finset

/-- `Eigen::MatrixXd`: sizes and coefficients.  Coefficients outside `rows × cols` are meaningless and never read by the code. -/
structure Mat where
  rows : Nat
  cols : Nat
  e : Nat → Nat → ℝ

/-- `m(i,j) = v`. -/
def Mat.set (m : Mat) (i j : Nat) (v : ℝ) : Mat := { m with e := fun a b => if a = i ∧ b = j then v else m.e a b }

/-- `m.resize(r, c)`: a no-op if the size is unchanged, otherwise the coefficients are unspecified (`junk`). -/
def Mat.resize (m : Mat) (r c : Nat) (junk : Nat → Nat → ℝ) : Mat :=
  if m.rows = r ∧ m.cols = c then m else { rows := r, cols := c, e := junk }

/-- `m.conservativeResize(r, c)`: keeps the common coefficients, the new ones are unspecified. -/
def Mat.conservativeResize (m : Mat) (r c : Nat) (junk : Nat → Nat → ℝ) : Mat :=
  { rows := r, cols := c, e := fun i j => if i < m.rows ∧ j < m.cols then m.e i j else junk i j }

/-- `m.conservativeResizeLike(Zero(r, c))`: keeps the common coefficients, the new ones are zero. -/
def Mat.conservativeResizeZero (m : Mat) (r c : Nat) : Mat :=
  { rows := r, cols := c, e := fun i j => if i < m.rows ∧ j < m.cols then m.e i j else 0 }

/-- The `0 × 0` matrix of a default-constructed `MatrixXd`. -/
def Mat.empty : Mat := ⟨0, 0, fun _ _ => 0⟩

/-- `for (i = 0; i < n; ++i) s = f(i, s)`. -/
def forN {σ : Type} : Nat → (Nat → σ → σ) → σ → σ
  | 0, _, s => s
  | n + 1, f, s => f n (forN n f s)

/-- Coefficient `i` of the solution of `L z = b` by forward substitution: `triangularView<Lower>().solve(b)` (Eigen).  Only the
lower triangle of `L` is read. -/
noncomputable def fsub (L : Nat → Nat → ℝ) (b : Nat → ℝ) (i : Nat) : ℝ :=
  (b i - ∑ j : Fin i, L i j * fsub L b j) / L i i
termination_by i
decreasing_by exact j.2

/-- Coefficient `i` of the solution of `Lᵀ x = c` (size `n`) by back substitution:
`triangularView<Lower>().adjoint().solveInPlace(c)` (Eigen). -/
noncomputable def bsub (L : Nat → Nat → ℝ) (n : Nat) (c : Nat → ℝ) (i : Nat) : ℝ :=
  (c i - ∑ k : Fin (n - (i + 1)), L (i + 1 + k) i * bsub L n c (i + 1 + k)) / L i i
termination_by n - i
decreasing_by omega

end Limbo
