import Verif.Spec.EhviGp

/-! Specification vocabulary for "NSBO evaluates the most uncertain point of its front". -/

namespace Limbo

open Gp

/-- `Nsbo` with a GP for each objective, whose evolutionary algorithm `ea` returns points without NaN or infinite coordinates. -/
structure UsesNsboGp {E : GpEnv} (P : MuParams XR (GpState E)) (ea : BoState XR (MM XR (GpState E)) → Nat → List (List XR × List XR)) : Prop where
  ops : ∃ u junkC junkA hp, P.ops = gpOps E u junkC junkA hp
  sigma : P.sigma = gpSigma0
  sferes : P.sferes = some ea
  finite : ∀ s n, ∀ p ∈ ea s n, AllFin p.1
  pset : PsetOk P

end Limbo
