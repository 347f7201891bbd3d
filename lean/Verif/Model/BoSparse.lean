import Verif.Model.BoGp
import Verif.Model.Sparsified

/-!
`BOptimizer` with `model::SparsifiedGP` as its model: `boptimizer.hpp:138-170` calls `model_t(dim_in, dim_out)`, `compute`, `add_sample` (both
hidden by the derived class, sparsified_gp.hpp:84-118) and `optimize_hyperparams` (inherited from `GP`).  The simplifications are those of
`Verif/Model/BoGp.lean`.
-/

namespace Limbo

variable {E : GpEnv}

/-- The `SparsifiedGP` as model of `BOptimizer` — boptimizer.hpp:143-146, 161, 164.  `u` are uninitialised members of a new GP; `K`, `KA` are
limit, schedules and uninitialised memory of each call. -/
noncomputable def sparseOps (E : GpEnv) (u : Nat → Nat → ℝ × ℝ) (K : List (List ℝ) → List (List ℝ) → GpState E → SparseGp.Ctx)
    (KA : List ℝ → List ℝ → GpState E → (Nat → Nat → ℝ) × SparseGp.Ctx) (hp : HpFunctor E) : ModelOps XR (GpState E) where
  fresh i o := Gp.newDims E (u i o) i o
  compute samples observations m := gpRes <| (realsL? samples).bind fun xs => (realsL? observations).bind fun ys =>
    SparseGp.compute (K xs ys m) m xs ys true
  addSample sample observation m := gpRes <| (reals? sample).bind fun x => (reals? observation).bind fun y =>
    SparseGp.addSample (KA x y m).1 (KA x y m).2 m x y
  optHp m := gpRes (hp.run m)

end Limbo
