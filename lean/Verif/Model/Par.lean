import Verif.Basic.Opt

/-!
Model of `tools/parallel.hpp`.

A TBB `parallel_reduce` is *some* binary tree over consecutive chunks of the index range; a TBB `parallel_for` is *some*
interleaving of the atomic actions of its iterations.  Both the tree and the interleaving are arbitrary parameters.
-/

namespace Limbo

/-- One execution of `tbb::parallel_reduce`: a body object runs on a chunk, goes on with the next sub-range with the value
accumulated so far (`seq`), or is split: the right part is run by a new body that starts from the identity element, and the
two values are joined (`fork`).  (`tools/parallel.hpp:190`) -/
inductive Sched where
  | chunk (n : Nat)
  | seq (a b : Sched)
  | fork (a b : Sched)

/-- Number of indices covered by a schedule. -/
def Sched.size : Sched → Nat
  | .chunk n => n
  | .seq a b => a.size + b.size
  | .fork a b => a.size + b.size

/-- The body of the reduction on the indices `start .. start+n-1`, which is also the serial loop
(`tools/parallel.hpp:172-182` and `193-199`): `if (comp(v, current_max)) current_max = v`. -/
def maxChunk {T : Type} (f : Nat → T) (comp : T → T → Bool) (start : Nat) : Nat → T → T
  | 0, acc => acc
  | n + 1, acc =>
    let v := f start
    maxChunk f comp (start + 1) n (if comp v acc then v else acc)

/-- `joint` (`tools/parallel.hpp:183-189`). -/
def maxJoin {T : Type} (comp : T → T → Bool) (p1 p2 : T) : T := if comp p1 p2 then p1 else p2

/-- The reduction for a given schedule (`tools/parallel.hpp:171-191`). -/
def parMaxFrom {T : Type} (init : T) (f : Nat → T) (comp : T → T → Bool) : Sched → Nat → T → T
  | .chunk n, start, acc => maxChunk f comp start n acc
  | .seq a b, start, acc => parMaxFrom init f comp b (start + a.size) (parMaxFrom init f comp a start acc)
  | .fork a b, start, acc =>
    maxJoin comp (parMaxFrom init f comp a start acc) (parMaxFrom init f comp b (start + a.size) init)

/-- `par::max` with TBB, executed with schedule `s` (`tools/parallel.hpp:168-191`).
Simplification: `num_steps >= 0` (a negative `int` would be converted to a huge `size_t` range with TBB). -/
def parMax {T : Type} (init : T) (f : Nat → T) (comp : T → T → Bool) (s : Sched) : T :=
  parMaxFrom init f comp s 0 init

/-- `par::max` without TBB (`tools/parallel.hpp:193-199`). -/
def parMaxSerial {T : Type} (init : T) (numSteps : Int) (f : Nat → T) (comp : T → T → Bool) : T :=
  maxChunk f comp 0 numSteps.toNat init

/-! ## Parallel loops -/

/-- Run a list of atomic actions on a shared state. -/
def runActions {σ : Type} : List (σ → σ) → σ → σ
  | [], s => s
  | a :: as, s => runActions as (a s)

/-- `par::loop(begin, end, f)` without TBB (`tools/parallel.hpp:148-149`); iteration `i` is the sequence of atomic
actions `body i`. -/
def serialLoop {σ : Type} (body : Nat → List (σ → σ)) (begin : Nat) : Nat → σ → σ
  | 0, s => s
  | n + 1, s => serialLoop body (begin + 1) n (runActions (body begin) s)

/-- An execution of `par::loop(begin, begin+n, f)` with TBB (`tools/parallel.hpp:142-146`): the actions of the iterations
are interleaved arbitrarily, each iteration's own actions staying in order.  Each action is tagged with its iteration. -/
def IsInterleaving {σ : Type} (body : Nat → List (σ → σ)) (begin n : Nat) (out : List (Nat × (σ → σ))) : Prop :=
  (∀ i, begin ≤ i → i < begin + n → (out.filter (fun p => p.1 == i)).map Prod.snd = body i) ∧
  (∀ p ∈ out, begin ≤ p.1 ∧ p.1 < begin + n)

/-- Effect of a tagged execution. -/
def runTagged {σ : Type} (out : List (Nat × (σ → σ))) (s : σ) : σ := runActions (out.map Prod.snd) s

/-- `par::for_each(begin, end, f)` (`tools/parallel.hpp:155-164`) is the loop over the positions of the container. -/
def forEachBody {σ A : Type} (items : List A) (f : A → List (σ → σ)) (i : Nat) : List (σ → σ) :=
  match items[i]? with
  | some a => f a
  | none => []

/-- `par::replicate(nb, f)` (`tools/parallel.hpp:216-229`) is the loop over `0..nb-1` with a constant body. -/
def replicateBody {σ : Type} (f : List (σ → σ)) (_ : Nat) : List (σ → σ) := f

end Limbo
