import Verif.Model.GpFiles
import Verif.Spec.Archive

/-! Vocabulary for the statements about the files of a GP. -/

namespace Limbo

/-- Two matrices of the same size with the same coefficients. -/
structure Mat.Same (m m' : Mat) : Prop where
  rows : m.rows = m'.rows
  cols : m.cols = m'.cols
  e : ∀ i < m.rows, ∀ j < m.cols, m.e i j = m'.e i j

/-- The value of a finite IEEE binary64 number. -/
noncomputable def doubleVal (w : BitVec 64) : ℝ :=
  let e : Nat := w.toNat / 2 ^ 52 % 2 ^ 11
  let m : Nat := w.toNat % 2 ^ 52
  (-1) ^ (w.toNat / 2 ^ 63) * (if e = 0 then (m : ℝ) * 2 ^ (-1074 : ℤ) else ((2 : ℝ) ^ 52 + m) * 2 ^ ((e : ℤ) - 1075))

variable {M V : Type} {E : GpEnv}

/-- The stored numbers `o` are the objects `st` hands to the archive. -/
structure Gp.Stores (R : Reading M V) (o : GpObjects M V) (st : GpState E) : Prop where
  kernelParams : o.kernelParams.map R.vec = (Gp.save st).kernelParams
  meanParams : o.meanParams.map R.vec = (Gp.save st).meanParams
  samples : o.samples.map R.row = st.samples
  observations : (R.mat o.observations).Same st.obs
  matrixL : (R.mat o.matrixL).Same st.L
  alpha : (R.mat o.alpha).Same st.alpha

/-- Objects the binary archive can hold: matrices that exist in memory, parameter vectors and samples with one column, fewer than 2^31
samples. -/
structure BinArch.Storable (o : GpObjects BinArch.BMat BinArch.BMat) : Prop where
  params : ∀ m ∈ o.kernelParams.toList ++ o.meanParams.toList ++ o.samples, m.Fits ∧ m.cols = 1
  mats : ∀ m ∈ [o.observations, o.matrixL, o.alpha], m.Fits
  count : o.samples.length < 2 ^ 31

/-- All the numbers in the objects. -/
def TextArch.numbers {D : Type} (o : GpObjects (TextArch.TMat D) (List D)) : List D :=
  ((o.kernelParams.toList ++ o.meanParams.toList ++ [o.observations, o.matrixL, o.alpha]).flatMap fun m => m.e.flatten) ++ o.samples.flatten

/-- Objects the text archive can hold: matrices with at least one row and column, parameter vectors with one column. -/
structure TextArch.Storable {D : Type} (o : GpObjects (TextArch.TMat D) (List D)) : Prop where
  params : ∀ m ∈ o.kernelParams.toList ++ o.meanParams.toList, m.Proper ∧ m.cols = 1
  mats : ∀ m ∈ [o.observations, o.matrixL, o.alpha], m.Proper

end Limbo
