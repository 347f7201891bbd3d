import Verif.Model.BoGp
import Verif.Model.MultiGp

/-!
`BOptimizer` with `model::MultiGP` as its model: `boptimizer.hpp:138-170` calls `model_t(dim_in, dim_out)`, `compute`, `add_sample` and
`optimize_hyperparams` of the `MultiGP` of `Verif/Model/MultiGp.lean`.  The simplifications are those of `Verif/Model/BoGp.lean`.
-/

namespace Limbo

variable {E : GpEnv}

/-- The `HyperParamsOptimizer` template parameter of `MultiGP` — multi_gp.hpp:60, multi_gp/parallel_lf_opt.hpp:57-66, gp/no_lf_opt.hpp:
none, or `ParallelLFOpt` with `KernelLFOpt` or (`loo`) `KernelLooOpt` for the sub-models.  The inner optimizers may be random and `J`, `j` are
contents of uninitialised memory, hence the arguments. -/
inductive MultiHp (E : GpEnv)
  | none
  | parallel (loo : Bool) (O : MultiGpState E → Nat → Optz XR) (J : MultiGpState E → Nat → List ℝ → Nat → Nat → ℝ) (j : MultiGpState E → MultiJunk)

/-- `optimize_hyperparams()` — multi_gp.hpp:129-132; `NoLFOpt` fails an assertion. -/
noncomputable def MultiHp.run : MultiHp E → MultiGpState E → Option (MultiGpState E)
  | .none, _ => Option.none
  | .parallel loo O J j, s => MultiGp.step s (.hpOpt loo (O s) (J s)) (j s)

/-- Outcome of a `MultiGP` operation. -/
def mgRes (o : Option (MultiGpState E)) : Res (MultiGpState E) :=
  match o with
  | some s => .ok s
  | none => .ub

/-- The `MultiGP` as model of `BOptimizer` — boptimizer.hpp:143-146, 161, 164.  `u` are uninitialised members of new sub-models. -/
noncomputable def multiGpOps (E : GpEnv) (u : Nat → Nat → Nat → ℝ × ℝ) (junkC : List (List ℝ) → List (List ℝ) → MultiGpState E → MultiJunk)
    (junkA : List ℝ → List ℝ → MultiGpState E → MultiJunk) (hp : MultiHp E) : ModelOps XR (MultiGpState E) where
  fresh i o := MultiGp.newDims E (u i o) i o
  compute samples observations m := mgRes <| (realsL? samples).bind fun xs => (realsL? observations).bind fun ys =>
    MultiGp.compute (junkC xs ys m) m xs ys true
  addSample sample observation m := mgRes <| (reals? sample).bind fun x => (reals? observation).bind fun y =>
    MultiGp.addSample (junkA x y m) m x y
  optHp m := mgRes (hp.run m)

end Limbo
