import Verif.Model.Par
import Verif.Spec.Par

/-!
Model of `experimental/tools/pareto.hpp`.

A population is a list of elements of a type `P`; `obj x` is `std::get<K>(x)`.  Objective vectors are lists; all vectors of a population
are assumed to have the same length (otherwise Eigen's index assertion fires): this is a premise of the theorems.
-/

namespace Limbo

variable {α P : Type} [Scalar α]

/-- The loop of `dominate_flag` with its two flags (`pareto.hpp:66-71`). -/
def domFlags : List α → List α → Bool → Bool → Bool × Bool
  | a :: as, b :: bs, flag1, flag2 =>
    if lt b a then domFlags as bs true flag2
    else if lt a b then domFlags as bs flag1 true
    else domFlags as bs flag1 flag2
  | _, _, flag1, flag2 => (flag1, flag2)

/-- `dominate_flag` (`pareto.hpp:59-79`). -/
def dominateFlag (i1 i2 : List α) : Int :=
  match domFlags i1 i2 false false with
  | (flag1, flag2) => if flag1 && !flag2 then 1 else if !flag1 && flag2 then -1 else 0

/-- `dominate` (`pareto.hpp:82-86`). -/
def dominate (i1 i2 : List α) : Bool := dominateFlag i1 i2 == 1

/-- `non_dominated` (`pareto.hpp:88-95`). -/
def nonDominated (obj : P → List α) (pObjs : List α) : List P → Bool
  | [] => true
  | x :: xs => if dominate (obj x) pObjs then false else nonDominated obj pObjs xs

/-- The comparison loop of `compare_objs_lex` (`pareto.hpp:98-111`). -/
def lexBefore : List α → List α → Bool
  | a :: as, b :: bs => if lt b a then true else if lt a b then false else lexBefore as bs
  | _, _ => false

/-- Iteration `i` of the parallel loop of `pareto_set_std` on the shared concurrent vector (`pareto.hpp:148-159`). -/
def paretoBody (obj : P → List α) (p : List P) (i : Nat) : List (List P → List P) :=
  match p[i]? with
  | some x => if nonDominated obj (obj x) p then [fun pareto => pareto ++ [x]] else []
  | none => []

/-- An execution of `pareto_set_std` returning `result` (`pareto.hpp:138-162`): any interleaving `out` of the iterations, then `std::sort`,
which leaves any sorted rearrangement. -/
def ParetoSetStd (obj : P → List α) (p : List P) (result : List P) : Prop :=
  ∃ out, IsInterleaving (paretoBody obj p) 0 p.length out ∧ result.Perm (runTagged out []) ∧
    SortedFor (fun x y => lexBefore (obj x) (obj y)) result

/-- `pareto_set` (`pareto.hpp:197-207`): the two assertions, then `pareto_set_std`. -/
def ParetoSet (obj : P → List α) (v : List P) (result : List P) : Prop :=
  (∃ x, v.head? = some x ∧ 1 < (obj x).length) ∧ ParetoSetStd obj v result

/-! ## The two-objective variant (not called by `pareto_set`: the call is commented out) -/

/-- `std::lower_bound` as implemented by libstdc++, on indices: `comp i` is `comp(*it_i, val)`. -/
def lowerBound (comp : Nat → Bool) (first len : Nat) : Nat :=
  if len = 0 then first
  else
    let half := len / 2
    if comp (first + half) then lowerBound comp (first + half + 1) (len - half - 1)
    else lowerBound comp first half
termination_by len
decreasing_by all_goals omega

/-- Second objective of the last element of a front; `none` when the front or the vector is too short. -/
def backSecond (obj : P → List α) (front : List P) : Option α := front.getLast?.bind fun x => (obj x)[1]?

/-- `comp_fronts` on front number `i` and the singleton `{x}` (`pareto.hpp:121-135`). -/
def compFronts (obj : P → List α) (f : List (List P)) (x2 : α) (i : Nat) : Bool :=
  match (f[i]?).bind (backSecond obj) with
  | some b => lt x2 b
  | none => false

/-- Body of the loop of `sort_2objs` (`pareto.hpp:180-189`).  `f[e]` is always the last front: `e` grows with every new front.
`none` = assertion `b != f.end()` violated or an access out of range. -/
def sort2Step (obj : P → List α) (f : List (List P)) (x : P) : Option (List (List P)) :=
  match (obj x)[1]?, f.getLast?.bind (backSecond obj) with
  | some x2, some last2 =>
    if lt last2 x2 then
      let b := lowerBound (compFronts obj f x2) 0 f.length
      if b = f.length then none else some (f.modify b (· ++ [x]))
    else some (f ++ [[x]])
  | _, _ => none

/-- The loop of `sort_2objs` (`pareto.hpp:174-190`). -/
def sort2Loop (obj : P → List α) : List P → List (List P) → Option (List (List P))
  | [], f => some f
  | x :: xs, f => (sort2Step obj f x).bind (sort2Loop obj xs)

/-- `sort_2objs` on the sorted population (`pareto.hpp:171-191`); `none` also for an empty population (`p[0]`). -/
def sort2objs (obj : P → List α) (sorted : List P) : Option (List P) :=
  match sorted with
  | [] => none
  | x :: xs => (sort2Loop obj xs [[x]]).bind fun f => f.head?

end Limbo
