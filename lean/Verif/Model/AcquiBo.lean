import Verif.Model.Acqui
import Verif.Model.BoGp

/-!
Acquisition objects inside `BOptimizer`: `acquisition_function_t acqui(_model, this->_current_iteration)` and
`acqui_optimization = [&](x, g) { return acqui(x, afun, g); }` (`bayes_opt/boptimizer.hpp:151-156`), for the acquisition functions of
`Verif/Model/Acqui.lean` and a GP model.

Simplifications: the acquisition functions are modelled over exact reals, so the aggregator is used on vectors of reals (`realAgg`: exact
when the aggregator gives finite values on finite vectors).  A failed assertion (gradient asked for) and a point with a NaN or infinite
coordinate are represented by the value NaN.
-/

namespace Limbo

open Gp

variable {E : GpEnv}

/-- A number, `0` if it is NaN or infinite. -/
noncomputable def XR.toR : XR → ℝ
  | Xt.fin x => x
  | _ => 0

/-- The aggregator on vectors of reals. -/
noncomputable def realAgg (afun : List XR → XR) (l : List ℝ) : ℝ := XR.toR (afun (l.map XR.fin))

/-- `acqui::UCB` (`acqui/ucb.hpp:72-90`); the iteration is not used. -/
noncomputable def ucbObj (alpha : ℝ) (g : GpState E) (_it : Int) (afun : List XR → XR) : ObjFn XR := fun x grad =>
  match (reals? x).bind fun v => Acqui.ucb (Gp.view g) (realAgg afun) alpha v grad with
  | some y => (XR.fin y, none)
  | none => ((Xt.nan : Xt ℝ), none)

/-- `acqui::GP_UCB` (`acqui/gp_ucb.hpp:76-105`). -/
noncomputable def gpUcbObj (delta : ℝ) (g : GpState E) (it : Int) (afun : List XR → XR) : ObjFn XR := fun x grad =>
  match (reals? x).bind fun v => Acqui.gpUcb (Gp.view g) (realAgg afun) delta it.toNat v grad with
  | some y => (y, none)
  | none => ((Xt.nan : Xt ℝ), none)

/-- `acqui::EI` (`acqui/ei.hpp:73-115`), a new object in each iteration; its cache does not change the value (C53), so every call is
modelled as the first one.  `u` is the content of the uninitialised `_f_max`. -/
noncomputable def eiObj (jitter u : ℝ) (g : GpState E) (_it : Int) (afun : List XR → XR) : ObjFn XR := fun x grad =>
  match (reals? x).bind fun v => Acqui.ei (Gp.view g) (realAgg afun) jitter (.new u) v grad with
  | some y => (XR.fin y.2, none)
  | none => ((Xt.nan : Xt ℝ), none)

end Limbo
