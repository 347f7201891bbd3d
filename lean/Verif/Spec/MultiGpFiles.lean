import Verif.Model.MultiGpFiles
import Verif.Spec.GpFiles

/-! Vocabulary for the statements about the files of a `MultiGP`. -/

namespace Limbo

variable {M V : Type} {E : GpEnv}

/-- The stored numbers `o` are the objects `st` hands to the archive. -/
structure MultiGp.Stores (R : Reading M V) (o : MultiGpObjects M V) (st : MultiGpState E) : Prop where
  dims : R.vec o.dims = [(st.dimIn : ℝ), (st.dimOut : ℝ)]
  observations : o.observations.map R.row = st.obs
  meanParams : o.meanParams.map R.vec = (MultiGp.save st).meanParams
  subs : List.Forall₂ (Gp.Stores R) o.subs st.models

/-- Objects the binary archive can hold. -/
structure BinArch.StorableMulti (o : MultiGpObjects BinArch.BMat BinArch.BMat) : Prop where
  vecs : ∀ m ∈ o.dims :: (o.meanParams.toList ++ o.observations), m.Fits ∧ m.cols = 1
  count : o.observations.length < 2 ^ 31
  subs : ∀ p ∈ o.subs, BinArch.Storable p

/-- All the numbers in the objects. -/
def TextArch.numbersMulti {D : Type} (o : MultiGpObjects (TextArch.TMat D) (List D)) : List D :=
  ((o.dims :: o.meanParams.toList).flatMap fun m => m.e.flatten) ++ o.observations.flatten ++ o.subs.flatMap TextArch.numbers

/-- Objects the text archive can hold. -/
structure TextArch.StorableMulti {D : Type} (o : MultiGpObjects (TextArch.TMat D) (List D)) : Prop where
  vecs : ∀ m ∈ o.dims :: o.meanParams.toList, m.Proper ∧ m.cols = 1
  subs : ∀ p ∈ o.subs, TextArch.Storable p

end Limbo
