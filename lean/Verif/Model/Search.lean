import Verif.Model.Par

/-! Model of `opt/grid_search.hpp`, `opt/parallel_repeater.hpp`, `opt/chained.hpp`, `opt/random_point.hpp` and of the random
vectors of `tools/random_generator.hpp`. -/

namespace Limbo

variable {α : Type}

/-! ## Random vectors -/

/-- `tools::random_vec(size, rng)` (`tools/random_generator.hpp:116-123`): consecutive draws of the generator; `draws` is the
(arbitrary) sequence of numbers the generator produces. -/
def randomVec (draws : Nat → α) (size : Nat) : List α := (List.range size).map draws

/-- `tools::random_vector(size, bounded)` (`tools/random_generator.hpp:130-154`): `uniform` are the draws of the
thread's `uniform_real_distribution(0,1)` generator, `gauss` those of its `normal_distribution(0,10)` generator. -/
def randomVector (uniform gauss : Nat → α) (size : Nat) (bounded : Bool) : List α :=
  if bounded then randomVec uniform size else randomVec gauss size

/-- `opt::RandomPoint` (`opt/random_point.hpp:58-67`); `none` = failed `assert(bounded)`. -/
def randomPoint (uniform : Nat → α) : Optz α := fun _ init bounded =>
  if bounded then some (randomVec uniform init.length) else none

/-! ## Chained -/

/-- `opt::Chained<Params, O1, Os...>` (`opt/chained.hpp:64-81`). -/
def chained (first : Optz α) : List (Optz α) → Optz α
  | [] => first
  | second :: rest => fun f init bounded =>
    match first f init bounded with
    | none => none
    | some p => chained second rest f p bounded

/-! ## GridSearch -/

/-- `-std::numeric_limits<double>::max()`. -/
def negDblMax [Scalar α] : α := lit (-((2 ^ 53 - 1) * 2 ^ 971))

/-- Values of the loop variable of `for (double x = x0; x < upper; x += step)`.
`none` if the loop has not ended after `fuel` tests. -/
def ltSweep [Scalar α] (step upper : α) : Nat → α → Option (List α)
  | 0, _ => none
  | fuel + 1, x => if lt x upper then (ltSweep step upper fuel (x + step)).map (x :: ·) else some []

/-- The values tried in each dimension: `step_size = 1.0/bins`, `upper_lim = 1.0 + step_size`, `x` from 0
(`opt/grid_search.hpp:87-91`). -/
def gridSearchAxis [Scalar α] (bins : Nat) (fuel : Nat) : Option (List α) :=
  let step : α := lit 1 / lit bins
  ltSweep step (lit 1 + step) fuel (lit 0)

/-- The loop of `_inner_search` over the values of one coordinate (`opt/grid_search.hpp:91-110`).
`cand x` is the point to compare for the value `x`: the point itself at the last depth (95-96), the result of the nested search
otherwise (103).  `res = none` is the still uninitialised `current_result`; evaluating an
uninitialised vector is undefined behaviour (`none`).  Second component: the points on which `f` was called. -/
def gsFold [Scalar α] (f : ObjFn α) (cand : α → Option (Option (List α) × List (List α))) :
    List α → α → Option (List α) → List (List α) → Option (Option (List α) × List (List α))
  | [], _, res, tr => some (res, tr)
  | x :: xs, bestFit, res, tr =>
    match cand x with
    | some (some p, tr') =>
      let val := evalNoGrad f p
      if lt bestFit val then gsFold f cand xs val (some p) (tr ++ tr' ++ [p])
      else gsFold f cand xs bestFit res (tr ++ tr' ++ [p])
    | _ => none

/-- `GridSearch::_inner_search` (`opt/grid_search.hpp:84-112`); the first argument bounds the recursion depth (it is never
exhausted when it is at least `dim - depth`).  The axis values are the same at every depth.
`new_point[depth] = x` past the end is undefined behaviour. -/
def gsInner [Scalar α] (f : ObjFn α) (axis : List α) :
    Nat → Nat → List α → Option (Option (List α) × List (List α))
  | 0, _, _ => none
  | fuel + 1, depth, current =>
    if depth < current.length then
      gsFold f (fun x =>
        let newPoint := current.set depth x
        if depth = current.length - 1 then some (some newPoint, [])
        else gsInner f axis fuel (depth + 1) newPoint) axis negDblMax none []
    else none

/-- `GridSearch::operator()` (`opt/grid_search.hpp:74-80`) with ghost trace.  Outer `none`: undefined behaviour (failed
`assert(bounded)`, zero-dimensional point) or a non-terminating sweep (`bins = 0`, fuel);  inner `none`: the returned vector is
uninitialised memory. -/
def gridSearchRun [Scalar α] (bins fuel : Nat) (f : ObjFn α) (init : List α) (bounded : Bool) :
    Option (Option (List α) × List (List α)) :=
  if bounded then
    match gridSearchAxis bins fuel with
    | none => none
    | some axis => gsInner f axis init.length 0 (init.map fun _ => lit (1/2))
  else none

/-- `GridSearch::operator()`: the returned point. -/
def gridSearch [Scalar α] (bins fuel : Nat) : Optz α := fun f init bounded =>
  match gridSearchRun bins fuel f init bounded with
  | some (r, _) => r
  | none => none

/-! ## ParallelRepeater -/

/-- `-std::numeric_limits<float>::max()`. -/
def negFltMax [Scalar α] : α := lit (-((2 ^ 24 - 1) * 2 ^ 104))

/-- Starting point of replicate: `init + (random_vector(n) * 2. * epsilon - epsilon)` (`opt/parallel_repeater.hpp:88-89`). -/
def repeaterStart [Scalar α] (epsilon : α) (init : List α) (uniform : Nat → α) : List α :=
  List.zipWith (fun x r => x + (r * lit 2 * epsilon - epsilon)) init (randomVec uniform init.length)

/-- All elements of a list of possibly undefined values. -/
def allDefined {β : Type} : List (Option β) → Option (List β)
  | [] => some []
  | none :: _ => none
  | some a :: l => (allDefined l).map (a :: ·)

/-- `ParallelRepeater::operator()` (`opt/parallel_repeater.hpp:78-106`).  `uniform i` are the random numbers replicate `i` draws,
`s` is the schedule of `par::max` (its size is `repeats`).  `none`: a failed assertion or an undefined replicate.
The replicates are independent, so they are modelled as computed first and reduced after. -/
def parallelRepeater [Scalar α] (repeats : Int) (epsilon : α) (opt : Optz α) (uniform : Nat → Nat → α) (s : Sched) : Optz α :=
  fun f init bounded =>
    if repeats ≤ 0 || !(lt (lit 0) epsilon) || s.size ≠ repeats.toNat then none
    else
      let replicate (i : Nat) : Option (List α × α) :=
        (opt f (repeaterStart epsilon init (uniform i)) bounded).map (fun v => (v, evalNoGrad f v))
      match allDefined ((List.range repeats.toNat).map replicate) with
      | none => none
      | some rs =>
        let initV : List α × α := (init, negFltMax)
        let comp (v1 v2 : List α × α) : Bool := lt v2.2 v1.2
        some (parMax initV (fun i => rs.getD i initV) comp s).1

end Limbo
