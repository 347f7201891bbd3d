import Verif.Model.Bo
import Verif.Spec.Bo
import Verif.Spec.Pareto

/-! What the files with Pareto fronts should contain. -/

namespace Limbo

variable {α : Type}

open Classical in
/-- `rows` lists the pairs of `data` whose observation is dominated by no observation of `data`, each as often as it occurs there, as rows
"sample observation", in descending lexicographic order of the observations. -/
def FrontRows [Scalar α] (data : List (List α × List α)) (rows : List (List α)) : Prop :=
  ∃ front : List (List α × List α), rows = front.map (fun p => p.1 ++ p.2) ∧
    front.Perm (data.filter fun p => decide (∀ q ∈ data, ¬ Dominates q.2 p.2)) ∧
    front.Pairwise fun p q => ¬ LexGreater q.2 p.2

/-- Number of refreshes of the statistics since the last call of `optimize` began. -/
def statsInRun {M : Type} (tr : List (Event α M)) : Nat :=
  tr.foldl (fun n e => match e with | .start _ => 0 | .stat _ => n + 1 | _ => n) 0

/-- A directory in which every file is written completely at once: the writes in order, each with the number in the name of the file.
What file `i` contains in the end (`none`: there is no such file). -/
def fileAfter {R : Type} (writes : List (Int × R)) (i : Int) : Option R := (writes.reverse.find? fun w => w.1 == i).map Prod.snd

end Limbo
