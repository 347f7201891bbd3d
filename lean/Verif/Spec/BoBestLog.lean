import Verif.Spec.Bo

/-! The log files of `stat::BestSamples`, `stat::BestObservations` and `stat::BestAggregatedObservations`. -/

namespace Limbo

variable {α : Type} [Scalar α]

/-- `q` is the best evaluation among `l`, the earliest one in case of ties. -/
def IsFirstBest (afun : List α → α) (l : List (List α × List α)) (q : List α × List α) : Prop :=
  ∃ before after, l = before ++ q :: after ∧ (∀ r ∈ before, lt (afun r.2) (afun q.2) = true) ∧ ∀ r ∈ after, le (afun r.2) (afun q.2) = true

/-- What a run appends whose iterations stored one evaluation each and after which the best evaluations were `bests`: a header if no iteration was made before
(`t = 0`), and one row per iteration, numbered from `t` on. -/
def bestRows (p : List α × List α → List α) (t : Nat) (bests : List (List α × List α)) : List (LogLine α) :=
  if bests = [] then []
  else (if t = 0 then [.header] else []) ++ bests.mapIdx fun i q => .row ((t + i : Nat) : Int) (p q)

end Limbo
