import Verif.Model.EhviGp
import Verif.Spec.Multi
import Verif.Spec.BoAcqui
import Verif.Spec.Ehvi

/-! Specification vocabulary for "EHVI decides by the posterior of all data". -/

namespace Limbo

open Gp

/-- The posterior mean at `v` of an objective with values `ys` at the points `xs` of dimension `d`, for the kernel and mean function a new GP has. -/
noncomputable def objMean (E : GpEnv) (d : Nat) (xs : List (List ℝ)) (ys : List ℝ) (v : List ℝ) : ℝ :=
  postMean (BaseK.mk' E.KP d : BaseK E.K).op (meanFn (E.M.new 1) (ys.map fun y => [y]) 1) (E.KP.noise + 1e-8) xs (ys.map fun y => [y]) v 0

/-- The variance a new GP reports at `v` after learning values at the points `xs`. -/
noncomputable def objVar (E : GpEnv) (d : Nat) (xs : List (List ℝ)) (v : List ℝ) : ℝ :=
  reportedVar (BaseK.mk' E.KP d : BaseK E.K).op E.KP.noise xs v

/-- The samples `S` with their observations `O`, of two objectives, as real numbers. -/
def RealData (S O : List (List XR)) (xs : List (List ℝ)) (ys : List (ℝ × ℝ)) : Prop :=
  S = xs.map (fun x => x.map XR.fin) ∧ O = ys.map fun p => [XR.fin p.1, XR.fin p.2]

/-- By how much evaluating `v` is expected to enlarge the volume above `r` dominated by the observations `ys`, if the objectives at `v` are
independent Gaussians with the posterior means given all data, and *standard deviations equal to the posterior variances* (see C89). -/
noncomputable def ehviValue (E : GpEnv) (d : Nat) (r : ℝ × ℝ) (xs : List (List ℝ)) (ys : List (ℝ × ℝ)) (v : List ℝ) : ℝ :=
  expectedHvImprovement r ys (objMean E d xs (ys.map Prod.fst) v, objMean E d xs (ys.map Prod.snd) v) (objVar E d xs v ^ 2, objVar E d xs v ^ 2)

/-- `Ehvi` with a GP for each objective, `GridSearch` with `b` bins as inner optimizer and the reference point `r`. -/
structure UsesEhviGp {E : GpEnv} (P : MuParams XR (GpState E)) (sort : List (ℝ × ℝ) → List (ℝ × ℝ)) (c : Ehvi.Consts) (r : ℝ × ℝ) (b fuel : Nat) : Prop where
  ops : ∃ u junkC junkA hp, P.ops = gpOps E u junkC junkA hp
  mu : P.mu = gpMu0
  sigma : P.sigma = gpSigma0
  ehvi : P.ehvi2d = ehvi2dX sort c
  ref : P.ref = (XR.fin r.1, XR.fin r.2)
  inner : P.inner = fun _ _ f x bd => (gridSearch b fuel).toRes f x bd
  bins : 0 < b
  fuel : b + 2 ≤ fuel
  pset : PsetOk P
  sched : ∀ st n, (P.sched st n).size = n

end Limbo
