import Verif.Model.BoGp
import Verif.Model.Parego

/-!
`experimental::bayes_opt::Parego` (`experimental/bayes_opt/parego.hpp:65-90`): `BOptimizer` with `GPParego` as its model.
`boptimizer.hpp:138-170` calls `model_t(dim_in, dim_out)`, `compute`, `add_sample` and `optimize_hyperparams` of the model of
`Verif/Model/Parego.lean`.  The simplifications are those of `Verif/Model/BoGp.lean`; the weights drawn and the contents of
uninitialised memory are arbitrary functions of the arguments and of the state of the model.
-/

namespace Limbo

variable {E : GpEnv}

/-- Outcome of a `GPParego` operation. -/
def peRes (o : Option (Parego.St E)) : Res (Parego.St E) :=
  match o with
  | some s => .ok s
  | none => .ub

/-- `GPParego` as model of `BOptimizer` — boptimizer.hpp:143-146, 161, 164; gp_parego.hpp:81-98; `optimize_hyperparams` is inherited from
`GP` (gp.hpp:227-230) and works on the scalarised data.  `u` are uninitialised members of a new GP. -/
noncomputable def paregoOps (E : GpEnv) (rho : ℝ) (u : Nat → Nat → ℝ × ℝ) (ctxC : List (List ℝ) → List (List ℝ) → Parego.St E → Parego.Ctx)
    (ctxA : List ℝ → List ℝ → Parego.St E → Parego.Ctx) (hp : HpFunctor E) : ModelOps XR (Parego.St E) where
  fresh i o := Parego.newDims E (u i o) i o
  compute samples observations m := peRes <| (realsL? samples).bind fun xs => (realsL? observations).bind fun ys =>
    Parego.compute rho (ctxC xs ys m) m xs ys
  addSample sample observation m := peRes <| (reals? sample).bind fun x => (reals? observation).bind fun y =>
    Parego.addSample rho (ctxA x y m) m x y
  optHp m := peRes ((hp.run m.gp).map fun g => { m with gp := g })

end Limbo
