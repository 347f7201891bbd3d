import Verif.Model.StatGp
import Verif.Model.Search

/-!
`stop::MaxPredictedValue` used with a Gaussian process and `opt::GridSearch`.
-/

namespace Limbo

open Gp

variable {E : GpEnv}

/-- `model().mu(x)` as used by `stop::MaxPredictedValue` (`stop/max_predicted_value.hpp:85-88`, `model/gp.hpp:162-172`).  Simplification: the
criterion has no way to report a query that fails (a point with a NaN or infinite coordinate, or a GP whose matrices do not fit its data);
such a query answers with an empty vector.  `opt::GridSearch` asks at finite points only, and the optimizers keep the GP fitted (C90), so
this answer is never used in the theorems. -/
noncomputable def gpMean (g : GpState E) (x : List XR) : List XR :=
  match (reals? x).bind (Gp.mu g) with
  | some m => outVec g m
  | none => []

/-- `stop::MaxPredictedValue<Params, opt::GridSearch<Params>>` (`stop/max_predicted_value.hpp:66-112`) with `b` bins per dimension; `start` is
`tools::random_vector(bo.model().dim_in())`, of which `opt::GridSearch` only uses the length. -/
noncomputable def stopMaxPredicted (b fuel : Nat) (start : BoState XR (GpState E) → List XR) (ratio : XR) : Criterion XR (GpState E) :=
  maxPredictedValue gpMean (fun _ => gridSearch b fuel) start ratio

end Limbo
