import Verif.Spec.Bo
import Verif.Model.CBo

/-! Specification vocabulary for the constrained optimizer. -/

namespace Limbo

variable {α M C : Type}

/-- An observation of an objective with `d` outputs starts with the `d` objective values ... -/
def objectivePart (d : Nat) (v : List α) : List α := v.take d

/-- ... and ends with the constraint values. -/
def constraintPart (d : Nat) (v : List α) : List α := v.drop d

/-- Product of a non-empty list of numbers, left to right. -/
def productOf [Scalar α] : List α → α
  | [] => lit 1
  | x :: xs => xs.foldl (fun a b => a * b) x

/-- The library's notion of a feasible observation: the product of its constraint values is positive. -/
def FeasibleObs [Scalar α] (d : Nat) (v : List α) : Prop := lt (lit 0) (productOf (constraintPart d v)) = true

instance [Scalar α] (d : Nat) (v : List α) : Decidable (FeasibleObs d v) := by unfold FeasibleObs; infer_instance

/-- The last feasible observation of a list, or the last one if none is feasible. -/
def latestFeasible [Scalar α] (d : Nat) (obs : List (List α)) : Option (List α) :=
  if obs.filter (fun v => decide (FeasibleObs d v)) = [] then obs.getLast? else (obs.filter (fun v => decide (FeasibleObs d v))).getLast?

/-- How `dim_out()` of a model follows its data. -/
structure LawfulDim (ops : ModelOps α M) (dimOutOf : M → Nat) : Prop where
  fresh : ∀ i o, dimOutOf (ops.fresh i o) = o
  compute : ∀ s v m m' d, v ≠ [] → (∀ w ∈ v, w.length = d) → ops.compute s v m = .ok m' → dimOutOf m' = d
  addSample : ∀ s v m m', ops.addSample s v m = .ok m' → dimOutOf m' = v.length
  optHp : ∀ m m', ops.optHp m = .ok m' → dimOutOf m' = dimOutOf m

/-- No stopping criterion and no statistic ever calls `best_observation` or `best_sample`. -/
def NobodyLooks (P : CBoParams α M C) : Prop :=
  (∀ c ∈ P.stop, ∀ s a b l, c s a = some (b, l) → l = false) ∧ (∀ c ∈ P.stats, ∀ s a l, c s a = some l → l = false)

/-- Some statistic calls `best_observation` or `best_sample` whenever it is refreshed (like `stat::BestObservations`). -/
def AStatisticLooks (P : CBoParams α M C) : Prop := ∃ c ∈ P.stats, ∀ s a l, c s a = some l → l = true

end Limbo
