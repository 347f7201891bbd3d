import Verif.Model.Bo
import Verif.Model.HpOpt

/-!
`BOptimizer` with `model::GP` as its model: `boptimizer.hpp:138-170` calls `model_t(dim_in, dim_out)`, `compute`, `add_sample` and
`optimize_hyperparams` of the `GP` of `Verif/Model/Gp.lean`, whose last template parameter is one of the hyper-parameter optimizers of
`Verif/Model/HpOpt.lean`.

The optimizer works on `XR` numbers, the GP on exact reals.  Simplifications: a sample or observation with a NaN or infinite entry that
reaches the GP is reported as undefined behaviour (everything the GP computes from it would be NaN); so is every failed assertion of the
GP.  `junk` is the content of uninitialised memory, an arbitrary function of the operands.
-/

namespace Limbo

open Gp

variable {E : GpEnv}

/-- The finite vectors of a list of vectors, `none` if some entry is not finite. -/
def realsL? : List (List XR) → Option (List (List ℝ))
  | [] => some []
  | v :: vs => (reals? v).bind fun x => (realsL? vs).map (x :: ·)

/-- The `HyperParamsOptimizer` template parameter of `GP` — gp.hpp:75, model/gp/*.hpp.  The inner optimizer may be random, hence the
argument; `J`, `j` are contents of uninitialised memory. -/
inductive HpFunctor (E : GpEnv)
  | none
  | kernelLF (O : GpState E → Optz XR) (J : GpState E → List ℝ → Nat → Nat → ℝ) (j : GpState E → Nat → Nat → ℝ)
  | kernelLoo (O : GpState E → Optz XR) (J : GpState E → List ℝ → Nat → Nat → ℝ) (j : GpState E → Nat → Nat → ℝ)
  | meanLF (O : GpState E → Optz XR) (J : GpState E → List ℝ → Nat → Nat → ℝ) (j : GpState E → Nat → Nat → ℝ)
  | kernelMeanLF (O : GpState E → Optz XR) (J : GpState E → List ℝ → Nat → Nat → ℝ) (j : GpState E → Nat → Nat → ℝ)

/-- `optimize_hyperparams()` — gp.hpp:119-122. -/
noncomputable def HpFunctor.run : HpFunctor E → GpState E → Option (GpState E)
  | .none, s => noLFOpt s
  | .kernelLF O J j, s => kernelLFOpt (O s) (J s) (j s) s
  | .kernelLoo O J j, s => kernelLooOpt (O s) (J s) (j s) s
  | .meanLF O J j, s => meanLFOpt (O s) (J s) (j s) s
  | .kernelMeanLF O J j, s => kernelMeanLFOpt (O s) (J s) (j s) s

/-- Outcome of a GP operation. -/
def gpRes (o : Option (GpState E)) : Res (GpState E) :=
  match o with
  | some s => .ok s
  | none => .ub

/-- `_model.compute(this->_samples, this->_observations)` — boptimizer.hpp:144, gp.hpp:87-116 (`compute_kernel = true`). -/
noncomputable def boGpCompute (junk : List (List ℝ) → List (List ℝ) → GpState E → Nat → Nat → ℝ) (samples observations : List (List XR))
    (m : GpState E) : Res (GpState E) :=
  gpRes <| (realsL? samples).bind fun xs => (realsL? observations).bind fun ys =>
    Gp.compute (junk xs ys m) m xs ys true

/-- `_model.add_sample(this->_samples.back(), this->_observations.back())` — boptimizer.hpp:161, gp.hpp:126-152. -/
noncomputable def boGpAdd (junk : List ℝ → List ℝ → GpState E → Nat → Nat → ℝ) (sample observation : List XR) (m : GpState E) :
    Res (GpState E) :=
  gpRes <| (reals? sample).bind fun x => (reals? observation).bind fun y =>
    Gp.addSample (junk x y m) m x y

/-- The GP as model of `BOptimizer`.  `u` are the uninitialised `_log_lik` and `_log_loo_cv` of a new GP. -/
noncomputable def gpOps (E : GpEnv) (u : Nat → Nat → ℝ × ℝ) (junkC : List (List ℝ) → List (List ℝ) → GpState E → Nat → Nat → ℝ)
    (junkA : List ℝ → List ℝ → GpState E → Nat → Nat → ℝ) (hp : HpFunctor E) : ModelOps XR (GpState E) where
  fresh i o := Gp.newDims E (u i o) i o
  compute := boGpCompute junkC
  addSample := boGpAdd junkA
  optHp m := gpRes (hp.run m)

end Limbo
