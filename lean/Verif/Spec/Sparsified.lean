import Mathlib.Data.List.Sort
import Verif.Basic.Scalar
import Verif.Model.Kernel

/-! Specification of the thinning of a data set (no reference to the model). -/

namespace Limbo

variable {α β γ : Type}

/-- The sum of the `D` smallest distances from point `i` of `xs` to the other points. -/
def crowdOf [Scalar α] (d : β → β → α) (D : Nat) (xs : List β) (i : Nat) : α :=
  match xs[i]? with
  | none => lit 0
  | some x => ((((xs.eraseIdx i).map (d x)).insertionSort fun a b => le a b = true).take D).foldl (· + ·) (lit 0)

/-- Point `i` is one of the points for which `crowdOf` is smallest. -/
def MostCrowded [Scalar α] (d : β → β → α) (D : Nat) (xs : List β) (i : Nat) : Prop :=
  ∀ j < xs.length, le (crowdOf d D xs i) (crowdOf d D xs j) = true

/-- `r` results from `l` by removing points, one at a time and each time one that satisfies `pick` among those left, as long as
more than `lim` are left. -/
inductive GreedyThin (pick : List β → Nat → Prop) (lim : Nat) : List (β × γ) → List (β × γ) → Prop
  | stop {l : List (β × γ)} : l.length ≤ lim → GreedyThin pick lim l l
  | remove {l r : List (β × γ)} (i : Nat) : lim < l.length → i < l.length → pick (l.map Prod.fst) i →
      GreedyThin pick lim (l.eraseIdx i) r → GreedyThin pick lim l r

/-- No distance between two points is NaN and no sum of `D` distances reaches the largest `double`. -/
structure DistFinite [Scalar α] (d : β → β → α) (D : Nat) (xs : List β) : Prop where
  notNaN : ∀ x ∈ xs, ∀ y ∈ xs, isNaN (d x y) = false
  sums : ∀ l : List α, l.length = D → (∀ a ∈ l, ∃ x ∈ xs, ∃ y ∈ xs, a = d x y) → lt (l.foldl (· + ·) (lit 0)) (lit ((2 ^ 53 - 1) * 2 ^ 971)) = true

/-- Euclidean distance. -/
noncomputable def euclid (x y : List ℝ) : ℝ := √(∑ i ∈ Finset.range x.length, (at' x i - at' y i) ^ 2)

/-- Exact-arithmetic version of `crowdOf`: the sum of the `D` smallest distances from point `i` to the other points. -/
noncomputable def crowdReal (D : Nat) (xs : List (List ℝ)) (i : Nat) : ℝ :=
  ((((xs.eraseIdx i).map (euclid (xs.getD i []))).insertionSort (· ≤ ·)).take D).sum

/-- Point `i` is one whose `D` nearest neighbours are closest. -/
def MostRedundant (D : Nat) (xs : List (List ℝ)) (i : Nat) : Prop := ∀ j < xs.length, crowdReal D xs i ≤ crowdReal D xs j

/-- The data kept by a `SparsifiedGP` with limit `maxPoints` when it is given the pairs `(xs, ys)`. -/
structure Kept (maxPoints : Int) (din : Nat) (xs ys xs' ys' : List (List ℝ)) : Prop where
  same : ys'.length = xs'.length
  size : (xs'.length : Int) = min (xs.length : Int) maxPoints
  pairs : (xs'.zip ys').Sublist (xs.zip ys)
  greedy : GreedyThin (MostRedundant din) maxPoints.toNat (xs.zip ys) (xs'.zip ys')

end Limbo
