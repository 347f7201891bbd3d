import Mathlib.Data.List.Sort
import Verif.Basic.Xt
import Verif.Model.Search
import Verif.Model.Gp

/-!
`limbo::model::SparsifiedGP` (model/sparsified_gp.hpp).

The thinning of the data works on `double`s (any `Scalar`, so that overflow and NaN are covered); samples and observations are opaque there.
`none` is undefined behaviour.
-/

namespace Limbo

namespace Sparse

variable {α β γ : Type}

/-- `std::numeric_limits<double>::max()`. -/
def dblMax [Scalar α] : α := lit ((2 ^ 53 - 1) * 2 ^ 971)

/-- `Params::model_sparse_gp::max_points()` is an `int` compared with a `size_t`: a negative value becomes huge —
sparsified_gp.hpp:89, 109, 170. -/
def limit (maxPoints : Int) : Nat := if maxPoints < 0 then (2 ^ 64 + maxPoints).toNat else maxPoints.toNat

/-- `neighbors` of point `i` without `i` itself: row `i` of the distance matrix with entry `i` erased — sparsified_gp.hpp:134-137. -/
def neighbors (dist : Nat → Nat → α) (n i : Nat) : List α := ((List.range n).map (dist i)).eraseIdx i

/-- `std::partial_sort(neighbors.begin(), neighbors.begin() + D, neighbors.end())`, the first `D` entries — sparsified_gp.hpp:139.
Undefined behaviour if `D` exceeds the size or if the entries are not ordered (NaN). -/
def smallest [Scalar α] (D : Nat) (l : List α) : Option (List α) :=
  if D ≤ l.length ∧ l.all (fun a => !isNaN a) then some ((l.insertionSort fun a b => le a b = true).take D) else none

/-- `dist += neighbors[j]` — sparsified_gp.hpp:141-143. -/
def sumFrom0 [Scalar α] (l : List α) : α := l.foldl (· + ·) (lit 0)

/-- The local part of an iteration of the parallel loop — sparsified_gp.hpp:133-143. -/
def crowding [Scalar α] (D n : Nat) (dist : Nat → Nat → α) (i : Nat) : Option α := (smallest D (neighbors dist n i)).map sumFrom0

/-- The part of an iteration between `lock` and `unlock` — sparsified_gp.hpp:145-150. -/
def update [Scalar α] (d : α) (i : Nat) (s : α × Option Nat) : α × Option Nat := if lt d s.1 then (d, some i) else s

/-- `_get_most_dense_point(D, N, distances)` — sparsified_gp.hpp:126-154.  `order` is the order in which the iterations enter the
critical section (the rest of an iteration touches only local variables).  The result `none` inside is `-1`. -/
def mostDense [Scalar α] (order : List Nat) (D n : Nat) (dist : Nat → Nat → α) : Option (Option Nat) :=
  (order.foldl (fun (s? : Option (α × Option Nat)) i => s?.bind fun s => (crowding D n dist i).map fun d => update d i s)
    (some (dblMax, none))).map (·.2)

/-- `_remove_column(matrix, k)` — sparsified_gp.hpp:198-207. -/
def removeColumn (k : Nat) (m : Nat → Nat → α) : Nat → Nat → α := fun i j => if j < k then m i j else m i (j + 1)

/-- `_remove_row(matrix, k)` — sparsified_gp.hpp:186-195. -/
def removeRow (k : Nat) (m : Nat → Nat → α) : Nat → Nat → α := fun i j => if i < k then m i j else m (i + 1) j

/-- The `while` loop of `_sparsify` — sparsified_gp.hpp:170-180.  `sched n` is the order of the critical sections when `n` points are
left.  Each round removes a point, so `fuel = samples.size()` rounds suffice.  `dim x` is `x.size()`. -/
def thinLoop [Scalar α] (dim : β → Nat) (lim : Nat) (sched : Nat → List Nat) :
    Nat → List β → List γ → (Nat → Nat → α) → Option (List β × List γ)
  | 0, samp, obs, _ => some (samp, obs)
  | fuel + 1, samp, obs, dist =>
    if samp.length > lim then
      match samp with
      | [] => none
      | x0 :: _ =>
        (mostDense (sched samp.length) (dim x0) samp.length dist).bind fun k? =>
          match k? with
          | none => some (samp, obs)
          | some k => thinLoop dim lim sched fuel (samp.eraseIdx k) (obs.eraseIdx k) (removeRow k (removeColumn k dist))
    else some (samp, obs)

/-- The distance matrix; its diagonal is not initialised (`junk`) — sparsified_gp.hpp:160-167. -/
def distances (d : β → β → α) (junk : Nat → α) (samples : List β) : Nat → Nat → α := fun i j =>
  if i = j then junk i
  else match samples[i]?, samples[j]? with
    | some x, some y => d x y
    | _, _ => junk i

/-- `_sparsify(samples, observations)` — sparsified_gp.hpp:157-183.  `d x y` is `(x - y).norm()`. -/
def sparsify [Scalar α] (d : β → β → α) (dim : β → Nat) (maxPoints : Int) (sched : Nat → List Nat) (junk : Nat → α)
    (samples : List β) (observations : List γ) : Option (List β × List γ) :=
  thinLoop dim (limit maxPoints) sched samples.length samples observations (distances d junk samples)

end Sparse

namespace SparseGp

variable {E : GpEnv}

/-- What a run of `SparsifiedGP` depends on besides its arguments: `Params::model_sparse_gp::max_points()`, the schedule of the parallel
loop, the uninitialised diagonal, and the uninitialised memory of the underlying GP. -/
structure Ctx where
  maxPoints : Int
  sched : Nat → List Nat
  diag : Nat → XR
  junk : Nat → Nat → ℝ

/-- `compute(samples, observations, compute_kernel)` — sparsified_gp.hpp:84-100. -/
noncomputable def compute (c : Ctx) (st : GpState E) (xs ys : List (List ℝ)) (computeKernel : Bool) : Option (GpState E) :=
  if xs.length ≤ Sparse.limit c.maxPoints then Gp.compute c.junk st xs ys computeKernel
  else
    (Sparse.sparsify (fun x y => XR.fin (dist2 x y)) List.length c.maxPoints c.sched c.diag xs ys).bind fun r =>
      Gp.compute c.junk st r.1 r.2 computeKernel

/-- `add_sample(sample, observation)` — sparsified_gp.hpp:104-118; `junk₀` is the uninitialised memory of the base class call. -/
noncomputable def addSample (junk₀ : Nat → Nat → ℝ) (c : Ctx) (st : GpState E) (x y : List ℝ) : Option (GpState E) :=
  (Gp.addSample junk₀ st x y).bind fun st =>
    if st.samples.length > Sparse.limit c.maxPoints then
      let observations := (List.range st.samples.length).map fun i => (List.range st.obs.cols).map fun c => st.obs.e i c
      compute c st st.samples observations true
    else some st

end SparseGp

end Limbo
