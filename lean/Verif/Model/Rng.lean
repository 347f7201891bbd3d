import Mathlib.Data.Real.Basic

/-!
`tools::RandomGenerator` (`tools/random_generator.hpp:63-96`), and its use by several threads.

The standard library is not part of the repository.  What is assumed of it:

* the engine `std::mt19937` has a state of type `σ`, set by `seed(n)` and advanced by each draw;
* a distribution has parameters, set by the constructor and `param`, and may keep something between two draws, forgotten by `reset()`;
* `uniform_real_distribution` and `uniform_int_distribution` keep nothing;
* `normal_distribution` makes its numbers in pairs from the engine (the polar method of libstdc++, `bits/random.tcc`), returns one and keeps
  the other for the next call; parameters are applied when a number is returned.
-/

namespace Limbo.Rng

/-- A distribution of the standard library, drawing numbers of type `ρ` from an engine with state `σ`. -/
structure Dist (σ ρ : Type) where
  Param : Type
  Saved : Type
  /-- nothing kept: the state after construction and after `reset()` -/
  fresh : Saved
  draw : Param → Saved → σ → ρ × Saved × σ

/-- `rdist_double_t`, `rdist_int_t` — random_generator.hpp:98-100: a distribution that keeps nothing; `f` is what it computes from the engine. -/
def uniform {σ ρ : Type} (Param : Type) (f : Param → σ → ρ × σ) : Dist σ ρ where
  Param := Param
  Saved := Unit
  fresh := ()
  draw p _ e := ((f p e).1, (), (f p e).2)

/-- `rdist_gauss_t` — random_generator.hpp:102; `pair` makes two standard normal numbers from the engine, the second to be kept. -/
def gauss {σ : Type} (pair : σ → (ℝ × ℝ) × σ) : Dist σ ℝ where
  Param := ℝ × ℝ
  Saved := Option ℝ
  fresh := none
  draw p s e := match s with
    | some v => (v * p.2 + p.1, none, e)
    | none => ((pair e).1.1 * p.2 + p.1, some (pair e).1.2, (pair e).2)

variable {σ ρ : Type} (D : Dist σ ρ)

/-- `_dist` and `_rgen` — random_generator.hpp:92-94. -/
structure Gen where
  param : D.Param
  saved : D.Saved
  eng : σ

variable {D}

/-- `seed(seed)` — random_generator.hpp:78-84; `seeded` is `_rgen.seed(n)`, `auto` the state of an engine seeded with `auto_seed_128`.  `_dist` is
not touched. -/
def Gen.seed (seeded : Nat → σ) (auto : σ) (s : Int) (g : Gen D) : Gen D := { g with eng := if 0 ≤ s then seeded s.toNat else auto }

/-- the constructor — random_generator.hpp:74 -/
def Gen.new (seeded : Nat → σ) (auto : σ) (p : D.Param) (s : Int) : Gen D := Gen.seed seeded auto s ⟨p, D.fresh, auto⟩

/-- `rand()` — random_generator.hpp:76 -/
def Gen.rand (g : Gen D) : ρ × Gen D := ((D.draw g.param g.saved g.eng).1, ⟨g.param, (D.draw g.param g.saved g.eng).2.1, (D.draw g.param g.saved g.eng).2.2⟩)

/-- `reset()` — random_generator.hpp:86 -/
def Gen.reset (g : Gen D) : Gen D := { g with saved := D.fresh }

/-- `param(p)` — random_generator.hpp:88 -/
def Gen.setParam (p : D.Param) (g : Gen D) : Gen D := { g with param := p }

/-- `n` calls of `rand()`; also `random_vec(n, rng)` — random_generator.hpp:115-122. -/
def Gen.draws : Nat → Gen D → List ρ × Gen D
  | 0, g => ([], g)
  | n + 1, g => (g.rand.1 :: (Gen.draws n g.rand.2).1, (Gen.draws n g.rand.2).2)

/-- A call. -/
inductive Op (D : Dist σ ρ) where
  | rand
  | seed (s : Int) (auto : σ)
  | reset
  | param (p : D.Param)

/-- The generator after a sequence of calls. -/
def runOps (seeded : Nat → σ) : List (Op D) → Gen D → Gen D
  | [], g => g
  | .rand :: os, g => runOps seeded os g.rand.2
  | .seed s a :: os, g => runOps seeded os (g.seed seeded a s)
  | .reset :: os, g => runOps seeded os g.reset
  | .param p :: os, g => runOps seeded os (g.setParam p)

/-! ### several threads -/

/-- Threads calling `rand()` on generators: thread `i` uses generator `owner i`.  `rand()` takes no lock (random_generator.hpp:76: the comment in
line 66 says "mutex-protected", but there is no mutex), so a call is two steps: read the generator, then write it back.  In C++ two such
calls on one generator are a data race, hence undefined; what is modelled here is the mildest of its effects, the order of these two steps.
`loaded i` is what thread `i` has read, if it is in the middle of a call, and `out` the numbers returned so far with the thread that got them. -/
structure Threads (D : Dist σ ρ) where
  gens : Nat → Gen D
  loaded : Nat → Option (Gen D)
  out : List (Nat × ρ)

/-- Thread `i` makes its next step. -/
def Threads.step (owner : Nat → Nat) (i : Nat) (t : Threads D) : Threads D :=
  match t.loaded i with
  | none => { t with loaded := fun j => if j = i then some (t.gens (owner i)) else t.loaded j }
  | some g => ⟨fun k => if k = owner i then g.rand.2 else t.gens k, fun j => if j = i then none else t.loaded j, t.out ++ [(i, g.rand.1)]⟩

/-- A schedule: which thread makes the next step. -/
def Threads.run (owner : Nat → Nat) (sched : List Nat) (t : Threads D) : Threads D := sched.foldl (fun t i => t.step owner i) t

/-- No call has begun. -/
def Threads.start (gens : Nat → Gen D) : Threads D := ⟨gens, fun _ => none, []⟩

end Limbo.Rng
