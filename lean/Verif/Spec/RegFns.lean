import Mathlib.LinearAlgebra.Matrix.Notation
import Verif.Model.RegFns

/-! What the regression benchmark's functions are supposed to be. -/

namespace Limbo.Reg

/-- `x` lies in the box: with one pair of bounds it holds for every coordinate, otherwise there is one pair per coordinate. -/
def InBox (b : List (ℝ × ℝ)) (x : List ℝ) : Prop :=
  (∃ p, b = [p] ∧ ∀ a ∈ x, p.1 ≤ a ∧ a ≤ p.2) ∨ (b.length ≠ 1 ∧ List.Forall₂ (fun p a => p.1 ≤ a ∧ a ≤ p.2) b x)

/-- `F` is defined on the vectors in `D`, `m` is its minimum there, and `x₀`, in the box, is the one and only minimizer among them. -/
def UniqueMin (F : RegFn) (D : List ℝ → Prop) (m : ℝ) (x₀ : List ℝ) : Prop :=
  InBox F.bounds x₀ ∧ D x₀ ∧ ∀ x, D x → ∃ y, F.f x = some y ∧ m ≤ y ∧ (y = m ↔ x = x₀)

/-- The kinetic energy of an arm of two uniform rods of mass `1/2` and length `1/2` in the plane, the second angle relative to the first rod:
for each rod the energy of its centre of mass plus that of the rotation about it. -/
noncomputable def kinetic (q0 q1 dq0 dq1 : ℝ) : ℝ :=
  let m : ℝ := 1 / 2
  let l : ℝ := 1 / 2
  let I : ℝ := m * l ^ 2 / 12
  -- velocities of the two centres of mass
  let v1x := -(l / 2) * Real.sin q0 * dq0
  let v1y := l / 2 * Real.cos q0 * dq0
  let v2x := -l * Real.sin q0 * dq0 - l / 2 * Real.sin (q0 + q1) * (dq0 + dq1)
  let v2y := l * Real.cos q0 * dq0 + l / 2 * Real.cos (q0 + q1) * (dq0 + dq1)
  m / 2 * (v1x ^ 2 + v1y ^ 2) + I / 2 * dq0 ^ 2 + m / 2 * (v2x ^ 2 + v2y ^ 2) + I / 2 * (dq0 + dq1) ^ 2

/-- The six-dimensional Hartmann function of the page cited at `test_functions.hpp:342` (https://www.sfu.ca/~ssurjano/hart6.html): a function to be minimized,
with the matrix of centres given there in units of `10⁻⁴`.  (The page itself is not part of /repo; this is the textbook form of the function.) -/
noncomputable def hartmannPage (x : Fin 6 → ℝ) : ℝ :=
  -∑ i : Fin 4, (![1.0, 1.2, 3.0, 3.2] : Fin 4 → ℝ) i * Real.exp (-∑ j : Fin 6,
    (!![10, 3, 17, 3.5, 1.7, 8; 0.05, 10, 17, 0.1, 8, 14; 3, 3.5, 1.7, 10, 17, 8; 17, 8, 0.05, 10, 0.1, 14] : Matrix (Fin 4) (Fin 6) ℝ) i j *
      (x j - 1e-4 * (!![1312, 1696, 5569, 124, 8283, 5886; 2329, 4135, 8307, 3736, 1004, 9991; 2348, 1451, 3522, 2883, 3047, 6650;
        4047, 8828, 8732, 5743, 1091, 381] : Matrix (Fin 4) (Fin 6) ℝ) i j) ^ 2)

end Limbo.Reg
