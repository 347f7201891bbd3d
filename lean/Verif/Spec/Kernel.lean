import Verif.Model.Kernel
import Mathlib.Data.Matrix.Mul

/-! The kernels limbo ships, with meaningful configuration values. -/

namespace Limbo

/-- The kernels limbo ships, configured with a positive signal variance and length scale. -/
inductive StdKernel : KernelImpl → Prop
  | exp {sigmaSq l : ℝ} : 0 < sigmaSq → 0 < l → StdKernel (expKernel sigmaSq l)
  | matern32 {sigmaSq l : ℝ} : 0 < sigmaSq → 0 < l → StdKernel (matern32 sigmaSq l)
  | matern52 {sigmaSq l : ℝ} : 0 < sigmaSq → 0 < l → StdKernel (matern52 sigmaSq l)
  | seArd {sigmaSq : ℝ} (k : Nat) : 0 < sigmaSq → StdKernel (seArd k sigmaSq)

end Limbo

namespace Limbo

/-- Euclidean distance of two vectors of the same length. -/
noncomputable def eucl (x y : List ℝ) : ℝ := √((List.zipWith (fun a b => (a - b) ^ 2) x y).sum)

/-- Documented formula of `Exp` (exp.hpp:66): `σ² exp(-‖x - y‖² / (2 l²))`. -/
noncomputable def docExp (sigmaSq l : ℝ) (x y : List ℝ) : ℝ := sigmaSq * Real.exp (-(eucl x y ^ 2 / (2 * l ^ 2)))

/-- The Matérn covariance of order 3/2 in closed form (Rasmussen & Williams, eq. 4.17). -/
noncomputable def docMatern32 (sigmaSq l : ℝ) (x y : List ℝ) : ℝ :=
  sigmaSq * (1 + √3 * eucl x y / l) * Real.exp (-(√3 * eucl x y / l))

/-- The Matérn covariance of order 5/2 in closed form (Rasmussen & Williams, eq. 4.17). -/
noncomputable def docMatern52 (sigmaSq l : ℝ) (x y : List ℝ) : ℝ :=
  sigmaSq * (1 + √5 * eucl x y / l + 5 * eucl x y ^ 2 / (3 * l ^ 2)) * Real.exp (-(√5 * eucl x y / l))

/-- Documented formula of `SquaredExpARD` (squared_exp_ard.hpp:68-70): `σ² exp(-½ (x-y)ᵀ M (x-y))` with
`M = Λ Λᵀ + diag(l_1⁻², …, l_n⁻²)`. -/
noncomputable def docArd {n k : Nat} (sigmaSq : ℝ) (l : Fin n → ℝ) (Λ : Matrix (Fin n) (Fin k) ℝ) (x y : Fin n → ℝ) : ℝ :=
  let M := Λ * Λ.transpose + Matrix.diagonal fun i => (l i ^ 2)⁻¹
  sigmaSq * Real.exp (-(1 / 2 * ((x - y) ⬝ᵥ (M.mulVec (x - y)))))

end Limbo
