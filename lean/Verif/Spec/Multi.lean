import Verif.Model.Multi
import Verif.Spec.Bo
import Verif.Spec.Pareto

/-! Vocabulary for the multi-objective optimizers: what their Pareto sets and models should hold. -/

namespace Limbo

variable {α M : Type}

/-- The observations of objective `j` alone, as vectors of length one. -/
def column (j : Nat) (obs : List (List α)) : List (List α) := obs.map fun v => (v[j]?).toList

/-- `front` lists the pairs `(x, y)` of the data whose `y` is dominated by no observation, each as often as it occurs, with zeros as
standard deviations. -/
def ParetoOf [Scalar α] (d : Nat) (S O : List (List α)) (front : List (PPoint α)) : Prop :=
  (∀ x y z, (x, y, z) ∈ front → z = List.replicate d (lit 0)) ∧
  (∀ x y, (∃ z, (x, y, z) ∈ front) ↔ (x, y) ∈ S.zip O ∧ ∀ y' ∈ O, ¬ Dominates y' y) ∧
  ∃ keep : List α × List α → Bool, (front.map fun p => (p.1, p.2.1)).Perm ((S.zip O).filter keep)

/-- One model per objective, model `j` holding the samples with their `j`-th observations. -/
def FittedTo (data : M → List (List α × List α)) (d : Nat) (S O : List (List α)) (models : List M) : Prop :=
  models.length = d ∧ ∀ j m, models[j]? = some m → data m = S.zip (column j O)

/-- `pareto_set` returns one of the results it may return, on populations of objective vectors of one dimension without NaN. -/
def PsetOk [Scalar α] (P : MuParams α M) : Prop :=
  ∀ (K : Nat) (obj : PPoint α → List α), (K = 1 ∧ obj = fun p => p.2.1) ∨ (K = 2 ∧ obj = fun p => p.2.2) →
    ∀ st v d, 1 < d → v ≠ [] → (∀ p ∈ v, GoodObjs d (obj p)) → ParetoSet obj v (P.pset K st v)

/-- `x` is what EHVI should evaluate next on the data `(S, O)`, of which there are some: with one model per objective fitted to it and the Pareto set `front` of it,
inner optimizations of the expected hypervolume improvement are started at every point of `front`; `x` is a best of their results.  The
exception is the second case: if no result is better than the initial value `-FLT_MAX` (or all are NaN), `x` is the vector `(0)`. -/
def EhviChoice [Scalar α] (P : MuParams α M) (data : M → List (List α × List α)) (S O : List (List α)) (x : List α) : Prop :=
  ∃ (front : List (PPoint α)) (m0 m1 : M) (pop : List (α × α)) (results : List (List α)) (acq : List α → α),
    S ≠ [] ∧ ParetoOf 2 S O front ∧ FittedTo data 2 S O [m0, m1] ∧
    List.Forall₂ (fun p q => p.2.1 = [q.1, q.2]) front pop ∧
    (∀ z, acq z = P.ehvi2d pop P.ref (P.mu m0 z, P.mu m1 z) (P.sigma m0 z, P.sigma m1 z)) ∧
    List.Forall₂ (fun p s => ∃ st i, P.inner st i (fun z _ => (acq z, none)) p.1 true = .point s) front results ∧
    ((x ∈ results ∧ lt negFltMax (acq x) = true ∧ ∀ s ∈ results, lt (acq x) (acq s) = false) ∨
      (x = [lit 0] ∧ ∀ s ∈ results, lt negFltMax (acq s) = false))

/-- A newly constructed object; the iteration counter is uninitialised. -/
def newMulti [Scalar α] (P : MuParams α M) (c : Int) : BoState α (MM α M) := newBo P.bo c ⟨[], [], []⟩

end Limbo
