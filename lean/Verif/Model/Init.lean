import Verif.Model.Search
import Mathlib.Analysis.Real.Sqrt
import Mathlib.Logic.Equiv.Defs

/-! Model of the initialisers `init/*.hpp` and of `tools::random_lhs`.

An initialiser is the list of points it passes to `eval_and_add`, in order (none of the library's initialisers looks at the results
of the evaluations).  The evaluation itself is in `Verif/Model/Bo.lean`. -/

namespace Limbo

variable {α : Type}

/-- `init::NoInit` (`init/no_init.hpp:54-57`). -/
def noInit : List (List α) := []

/-- `init::RandomSampling` (`init/random_sampling.hpp:71-80`): `samples` random vectors; sample `i` consumes `dim` draws from the
generator, starting at `i*dim`. -/
def randomSampling (uniform gauss : Nat → α) (samples : Int) (dim : Nat) (bounded : Bool) : List (List α) :=
  (List.range samples.toNat).map fun i =>
    randomVector (fun j => uniform (i * dim + j)) (fun j => gauss (i * dim + j)) dim bounded

/-- `init::RandomSamplingGrid` (`init/random_sampling_grid.hpp:76-91`): `rand()/double(bins)` where `rand` draws from
`uniform_int_distribution(0, bins)`; `none` = failed `assert(bounded)`. -/
def randomSamplingGrid [Scalar α] (draws : Nat → Nat) (samples : Int) (bins dim : Nat) (bounded : Bool) :
    Option (List (List α)) :=
  if bounded then
    some ((List.range samples.toNat).map fun i =>
      (List.range dim).map fun j => (lit (draws (i * dim + j)) / lit bins : α))
  else none

/-- Values of the loop variable of `for (double x = x0; x <= upper; x += step)`. -/
def leSweep [Scalar α] (step upper : α) : Nat → α → Option (List α)
  | 0, _ => none
  | fuel + 1, x => if le x upper then (leSweep step upper fuel (x + step)).map (x :: ·) else some []

/-- `for (double x = 0; x <= 1.0f; x += 1.0f / (double)bins)` (`init/grid_sampling.hpp:83`). -/
def gridSamplingAxis [Scalar α] (bins fuel : Nat) : Option (List α) :=
  leSweep (lit 1 / lit bins) (lit 1) fuel (lit 0)

/-- Concatenate the points produced for each axis value; `none` = undefined behaviour. -/
def exploreAxis (sub : α → Option (List (List α))) : List α → Option (List (List α))
  | [] => some []
  | x :: xs =>
    match sub x, exploreAxis sub xs with
    | some a, some b => some (a ++ b)
    | _, _ => none

/-- `GridSampling::_explore` (`init/grid_sampling.hpp:80-93`); the first argument bounds the recursion depth.
`point[dim_in] = x` past the end is undefined behaviour. -/
def explore (axis : List α) : Nat → Nat → List α → Option (List (List α))
  | 0, _, _ => none
  | fuel + 1, dimIn, current =>
    if dimIn < current.length then
      exploreAxis (fun x =>
        let point := current.set dimIn x
        if dimIn = current.length - 1 then some [point]
        else explore axis fuel (dimIn + 1) point) axis
    else none

/-- `init::GridSampling` (`init/grid_sampling.hpp:70-75`). -/
def gridSampling [Scalar α] (bins fuel dim : Nat) : Option (List (List α)) :=
  match gridSamplingAxis bins fuel with
  | none => none
  | some axis => explore axis dim 0 (List.replicate dim (lit 0))

/-! ## Latin hypercube sampling (exact reals) -/

/-- `tools::random_lhs(dim, n)` (`tools/random_generator.hpp:158-186`), over exact reals: `cut = LinSpaced(n+1, 0, 1)`, `a`/`b` its
first/last `n` entries, `rdpoints(k,i) = u(k,i)*(b-a)(k) + a(k)`.  `u` are the uniform draws, `perm i` the permutation
`std::shuffle` produced for column `i`.  Eigen's `perm * M` puts row `k` of `M` at row `perm(k)`. -/
noncomputable def randomLhs (dim n : Nat) (u : Fin n → Fin dim → ℝ) (perm : Fin dim → Equiv.Perm (Fin n)) :
    Fin n → Fin dim → ℝ :=
  let cut (k : Nat) : ℝ := k / n
  let a (k : Fin n) : ℝ := cut k
  let b (k : Fin n) : ℝ := cut (k + 1)
  let rdpoints (k : Fin n) (i : Fin dim) : ℝ := u k i * (b k - a k) + a k
  fun row i => rdpoints ((perm i).symm row) i

/-- Coordinate of the point `random_lhs` draws in stratum `k` of `n` (`tools/random_generator.hpp:160-173`) for any number type:
`cut = LinSpaced(n+1, 0., 1.)`, that is `k * (1/n)` with the last entry `1` itself, and `u * (b-a) + a` as written.  `randomLhs` above is the
same expression over exact reals, with the rows permuted. -/
def lhsCoord {α : Type} [Scalar α] (n k : Nat) (u : α) : α :=
  let cut (k : Nat) : α := if k = n then lit 1 else lit 0 + lit k * (lit 1 / lit n)
  let a := cut k
  let b := cut (k + 1)
  u * (b - a) + a

/-- `init::LHS` (`init/lhs.hpp:70-82`): asserts `bounded`, then evaluates the rows of `random_lhs(dim_in, samples)` in order. -/
noncomputable def lhsInit (dim samples : Nat) (u : Fin samples → Fin dim → ℝ) (perm : Fin dim → Equiv.Perm (Fin samples)) (bounded : Bool) :
    Option (List (List ℝ)) :=
  if bounded then some (List.ofFn fun row => List.ofFn fun i => randomLhs dim samples u perm row i) else none

end Limbo
