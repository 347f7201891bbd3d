import Verif.Model.BoGp
import Verif.Model.Ehvi
import Verif.Model.Multi

/-!
`Ehvi` with `model::GP` for each objective: the acquisition function of `experimental/acqui/ehvi.hpp:70-79` with the predictions of the GP of
`Verif/Model/Gp.lean` and the formula of `Verif/Model/Ehvi.lean`.

The optimizer works on `XR` numbers, the GP and `ehvi2d` on exact reals.  Simplification: when an operand is not finite the result is NaN.
-/

namespace Limbo

open Gp

/-- `afun(_models[i].mu(v))` with `FirstElem` — experimental/acqui/ehvi.hpp:75, gp.hpp:176-181. -/
noncomputable def gpMu0 {E : GpEnv} (g : GpState E) (x : List XR) : XR :=
  match (reals? x).bind fun v => Gp.mu g v with
  | some m => XR.fin (m 0)
  | none => Xt.nan

/-- `_models[i].sigma(v)` — experimental/acqui/ehvi.hpp:76, gp.hpp:186-191. -/
noncomputable def gpSigma0 {E : GpEnv} (g : GpState E) (x : List XR) : XR :=
  match (reals? x).bind fun v => Gp.sigma g v with
  | some s => XR.fin s
  | none => Xt.nan

/-- A pair of finite numbers. -/
def realPair? : XR × XR → Option (ℝ × ℝ)
  | (Xt.fin a, Xt.fin b) => some (a, b)
  | _ => none

/-- `ehvi2d(_pop, r, mu, s)` — experimental/acqui/ehvi.hpp:77, ehvi_calculations.cc:16-79. -/
noncomputable def ehvi2dX (sort : List (ℝ × ℝ) → List (ℝ × ℝ)) (c : Ehvi.Consts) (pop : List (XR × XR)) (r mu s : XR × XR) : XR :=
  match (do Ehvi.ehvi2d sort c (← pop.mapM realPair?) (← realPair? r) (← realPair? mu) (← realPair? s) : Option ℝ) with
  | some v => XR.fin v
  | none => Xt.nan

end Limbo
