import Verif.Model.Bo
import Verif.Spec.Bo

/-! Vocabulary of C119. -/

namespace Limbo

variable {α M : Type} [Scalar α]

/-- `x` is a point the optimizer may evaluate: one of the initial points, or the result of an optimization of the acquisition function. -/
def Proposed (P : BoParams α M) (f : StateFun α M) (x : List α) : Prop :=
  (∃ s pts, P.initPts s f.dimIn = some pts ∧ x ∈ pts) ∨ ∃ s obj, P.acquiOpt s obj (P.startPt s f.dimIn) P.bounded = .point x

/-- The exception `e` that left the optimizer in state `st` came from the last thing it did: the objective threw (its own exception goes
through), or it returned a value that is not finite (`EvaluationError`), or the optimizer of the acquisition function threw. -/
def FromOutside (P : BoParams α M) (f : StateFun α M) (e : Exn) (st : BoState α M) : Prop :=
  (∃ pre x r, st.trace = pre ++ [.call x r] ∧ Proposed P f x ∧ f.call pre x = r ∧
    ((r = .threw ∧ e = .other) ∨ ∃ v, r = .ret v ∧ ¬ AllFinite v ∧ e = .evaluationError)) ∨
  ∃ pre g it obj, st.trace = pre ++ [.acqui g it] ∧ P.acquiOpt st obj (P.startPt st f.dimIn) P.bounded = .threw ∧ e = .other

end Limbo
