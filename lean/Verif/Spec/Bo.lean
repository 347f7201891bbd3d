import Verif.Model.Bo
import Verif.Spec.Opt

/-! Specification vocabulary for the Bayesian optimizer: what a chronological list of events *should* have done.
Only the event type is shared with the model. -/

namespace Limbo

variable {α M : Type}

/-- No NaN and no infinity. -/
def AllFinite [Scalar α] (v : List α) : Prop := ∀ x ∈ v, isNaN x = false ∧ isInf x = false

/-- The data that should be stored after one more event. -/
def expectStep [Scalar α] (acc : List (List α × List α)) : Event α M → List (List α × List α)
  | .start true => []
  | .call x (.ret v) => if v.all (fun y => isFinite y) then acc ++ [(x, v)] else acc
  | .given s v => if v.all (fun y => isFinite y) then acc ++ [(s, v)] else acc
  | _ => acc

/-- The data that should be stored after a list of events, starting with `acc`: every finite evaluation since the last reset, in order. -/
def expectFrom [Scalar α] (acc : List (List α × List α)) (tr : List (Event α M)) : List (List α × List α) :=
  tr.foldl expectStep acc

/-- ... starting with no data. -/
def expect [Scalar α] (tr : List (Event α M)) : List (List α × List α) := expectFrom [] tr

/-- The points on which the objective was called, in order. -/
def callPts : List (Event α M) → List (List α)
  | [] => []
  | .call x _ :: es => x :: callPts es
  | _ :: es => callPts es

/-- The objective calls, with results, in order. -/
def callsOf : List (Event α M) → List (List α × CallRes α)
  | [] => []
  | .call x r :: es => (x, r) :: callsOf es
  | _ :: es => callsOf es

/-- Number of acquisition functions built. -/
def acquiCount : List (Event α M) → Nat
  | [] => 0
  | .acqui _ _ :: es => acquiCount es + 1
  | _ :: es => acquiCount es

/-- For every hyper-parameter optimization, how many iterations had been started before it (`c` before the list). -/
def hpMarks (c : Nat) : List (Event α M) → List Nat
  | [] => []
  | .acqui _ _ :: es => hpMarks (c + 1) es
  | .hp _ :: es => c :: hpMarks c es
  | _ :: es => hpMarks c es

/-- A model whose stored data is `data` and whose operations manage it correctly (when they return normally). -/
structure LawfulModel (ops : ModelOps α M) (data : M → List (List α × List α)) : Prop where
  fresh : ∀ i o, data (ops.fresh i o) = []
  compute : ∀ s v m m', s.length = v.length → ops.compute s v m = .ok m' → data m' = s.zip v
  addSample : ∀ s v m m', ops.addSample s v m = .ok m' → data m' = data m ++ [(s, v)]
  optHp : ∀ m m', ops.optHp m = .ok m' → data m' = data m

/-- Events before each refresh of the statistics, and the model at that moment; `pre` came before the list. -/
def statPointsFrom (pre : List (Event α M)) : List (Event α M) → List (List (Event α M) × M)
  | [] => []
  | e :: es => (match e with | .stat g => [(pre, g)] | _ => []) ++ statPointsFrom (pre ++ [e]) es

/-- ... from the beginning. -/
def statPoints (tr : List (Event α M)) : List (List (Event α M) × M) := statPointsFrom [] tr

/-- One more event: how many refreshes of the statistics since the last run with reset. -/
def statsStep (n : Nat) : Event α M → Nat
  | .start true => 0
  | .stat _ => n + 1
  | _ => n

/-- Number of refreshes of the statistics since the last run with reset. -/
def statsSince (tr : List (Event α M)) : Nat := tr.foldl statsStep 0

/-- The rows a log should contain for a run that starts with `before` already present and total counter `t`, and adds `new`. -/
def expectedLog (t : Nat) (before new : List (List α)) : List (LogLine α) :=
  if new = [] then []
  else (if t = 0 then .header :: before.map (.row (-1)) else []) ++ new.mapIdx fun i v => .row ((t + i : Nat) : Int) v

end Limbo
