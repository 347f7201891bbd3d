import Verif.Model.BoGp
import Verif.Model.Init
import Verif.Model.Wrappers

/-!
Statistics that look into the model: `stat/gp_prediction_differences.hpp`, `stat/gp_acquisitions.hpp`, `stat/gp_kernel_hparams.hpp`,
`stat/gp_mean_hparams.hpp`, `stat/gp.hpp`; and `stat/console_summary.hpp`.

A query of the GP at a point with a NaN or infinite coordinate is reported as undefined behaviour, as in `Verif/Model/BoGp.lean`.
`stats_enabled()` is tested by `updateStats`.  Text formatting is not modelled.  `stat::GPLikelihood` calls `model().get_lik()`, which
does not exist: it cannot be compiled, so it is not modelled.
-/

namespace Limbo

open Gp

section Gp
variable {E : GpEnv}

/-- An Eigen vector printed or aggregated: the first `dim_out()` entries. -/
noncomputable def outVec (g : GpState E) (m : Nat → ℝ) : List XR := (List.range g.dimOut.toNat).map fun c => XR.fin (m c)

/-- Header if `total_iterations() == 0`, then one row. -/
def headRow {α : Type} (total : Int) (v : List α) : List (LogLine α) := (if total = 0 then [.header] else []) ++ [.row total v]

/-- `stat::GPPredictionDifferences` (`stat/gp_prediction_differences.hpp:60-73`): predicted value, observed value, difference. -/
noncomputable def statGpPredictionDifferences : Stat XR (GpState E) := fun st afun =>
  if st.observations.isEmpty then some []
  else
    match st.samples.getLast?, st.observations.getLast? with
    | some x, some y =>
      (reals? x).bind fun v => (Gp.mu st.model v).map fun m =>
        let pred := afun (outVec st.model m)
        let obs := afun y
        headRow st.totalIterations [pred, obs, Cma.absS (pred - obs)]
    | _, _ => none

/-- `stat::GPAcquisitions` (`stat/gp_acquisitions.hpp:60-81`): mean, variance and acquisition value at the newest sample.  `acqui` is the
acquisition function type of the optimizer, built from the model and `current_iteration()`.  The header is written even without samples. -/
noncomputable def statGpAcquisitions (acqui : GpState E → Int → (List XR → XR) → ObjFn XR) : Stat XR (GpState E) := fun st afun =>
  match st.samples.getLast? with
  | none => some (if st.totalIterations = 0 then [.header] else [])
  | some x =>
    (reals? x).bind fun v => (Gp.query st.model v).map fun q =>
      headRow st.totalIterations [afun (outVec st.model q.1), XR.fin q.2, (acqui st.model st.currentIteration afun x false).1]

/-- `stat::GPKernelHParams` (`stat/gp_kernel_hparams.hpp:60-71`). -/
noncomputable def statGpKernelHParams : Stat XR (GpState E) := fun st _ =>
  if st.observations.isEmpty then some []
  else some (headRow st.totalIterations ((st.model.kf.hParams E.KP).map XR.fin))

/-- `stat::GPMeanHParams` (`stat/gp_mean_hparams.hpp:60-71`). -/
noncomputable def statGpMeanHParams : Stat XR (GpState E) := fun st _ =>
  if st.observations.isEmpty then some []
  else some (headRow st.totalIterations ((E.M.hParams st.model.mf).map XR.fin))

/-- One line of `stat::GP`: point, mean, variance, acquisition (`stat/gp.hpp:83-88`). -/
noncomputable def gpLine (acqui : GpState E → Int → (List XR → XR) → ObjFn XR) (st : BoState XR (GpState E)) (afun : List XR → XR)
    (point : List XR) : Option (LogLine XR) :=
  (reals? point).bind fun v => (Gp.query st.model v).map fun q =>
    .row st.totalIterations (point ++ outVec st.model q.1 ++ [XR.fin q.2, (acqui st.model st.currentIteration afun point false).1])

/-- All lines, or undefined behaviour in one of them. -/
noncomputable def gpLines (acqui : GpState E → Int → (List XR → XR) → ObjFn XR) (st : BoState XR (GpState E)) (afun : List XR → XR) :
    List (List XR) → Option (List (LogLine XR))
  | [] => some []
  | p :: ps => (gpLine acqui st afun p).bind fun l => (gpLines acqui st afun ps).map (l :: ·)

/-- `stat::GP` (`stat/gp.hpp:60-96`): the file `gp_<iteration>.dat`.  The loop over the grid is the one of `init::GridSampling`
(`gridSampling` in `Verif/Model/Init.lean`).  The log of this statistic is the sequence of the files it wrote, each starting with its
header; rows carry the number of the file (in the code a later file of the same number, after a reset, replaces the earlier one).
`VectorXd::Constant(dim_in(), 0)` needs a non-negative dimension. -/
noncomputable def statGp (acqui : GpState E → Int → (List XR → XR) → ObjFn XR) (bins fuel : Nat) : Stat XR (GpState E) := fun st afun =>
  if st.model.dimIn < 0 then none
  else
    (gridSampling (α := XR) bins fuel st.model.dimIn.toNat).bind fun pts =>
      (gpLines acqui st afun pts).map (.header :: ·)

end Gp

variable {α M : Type} [Scalar α]

/-- `stat::ConsoleSummary` (`stat/console_summary.hpp:58-67`): newest point, its value, best value. -/
def statConsole : Stat α M := fun st afun =>
  if st.observations.isEmpty then some []
  else
    match st.samples.getLast?, st.observations.getLast?, bestObservation afun st with
    | some x, some y, some b => some [.row st.totalIterations (x ++ [afun y, afun b])]
    | _, _, _ => none

end Limbo
