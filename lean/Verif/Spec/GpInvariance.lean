import Verif.Spec.Gp

/-! Vocabulary of C117 and C118. -/

namespace Limbo

/-- The point `x + t`. -/
def translate (t x : List ℝ) : List ℝ := List.zipWith (· + ·) x t

/-- `T` maps points of dimension `d` to points of dimension `d` and keeps all Euclidean distances (a rotation, a reflection, an exchange of
coordinates, a translation...). -/
structure KeepsDistances (T : List ℝ → List ℝ) (d : Nat) : Prop where
  dim : ∀ x, x.length = d → (T x).length = d
  dist : ∀ x y, x.length = d → y.length = d →
    ∑ i ∈ Finset.range d, ((T x).getD i 0 - (T y).getD i 0) ^ 2 = ∑ i ∈ Finset.range d, (x.getD i 0 - y.getD i 0) ^ 2

/-- The mean function does not look at the input: `NullFunction`, `Constant` and `Data`. -/
inductive InputFreeMean : MeanImpl → Prop
  | null : InputFreeMean nullMean
  | const (c : ℝ) : InputFreeMean (constMean c)
  | data : InputFreeMean dataMean

end Limbo
