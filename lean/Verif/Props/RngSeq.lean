import Verif.Props.Rng
import Mathlib.Logic.Function.Iterate

/-!
**C115**, which numbers a seeded generator returns: every draw is made from the state of the engine left by the draw before.
-/

namespace Limbo.Rng

variable {σ ρ : Type} {D : Dist σ ρ} (seeded : Nat → σ)

theorem draws_get_add : ∀ (k : Nat) (g : Gen D) (n i : Nat), (g.draws (k + n)).1[k + i]? = ((g.draws k).2.draws n).1[i]? := by
  intro k
  induction k with
  | zero => intro g n i; rw [Nat.zero_add, Nat.zero_add]; rfl
  | succ k ih =>
    intro g n i
    rw [show k + 1 + n = (k + n) + 1 by omega, show k + 1 + i = (k + i) + 1 by omega]
    show (g.rand.1 :: (Gen.draws (k + n) g.rand.2).1)[(k + i) + 1]? = _
    rw [List.getElem?_cons_succ, ih]; rfl

theorem uniform_draws_state (Param : Type) (f : Param → σ → ρ × σ) (p : Param) : ∀ (k : Nat) (e : σ),
    (Gen.draws (D := uniform Param f) k ⟨p, (), e⟩).2 = ⟨p, (), (fun e => (f p e).2)^[k] e⟩ := by
  intro k
  induction k with
  | zero => intro e; rfl
  | succ k ih => intro e; exact ih _

/-- **C115**: number `i` (from zero) of a generator of uniform numbers with the seed `s ≥ 0` is made from the engine seeded with `s` and advanced
by `i` draws. -/
theorem C115_uniform_numbers (Param : Type) (f : Param → σ → ρ × σ) (a : σ) (p : Param) (s : Int) (hs : 0 ≤ s) (n i : Nat) (hi : i < n) :
    ((Gen.new (D := uniform Param f) seeded a p s).draws n).1[i]? = some (f p ((fun e => (f p e).2)^[i] (seeded s.toNat))).1 := by
  obtain ⟨m, rfl⟩ : ∃ m, n = i + (m + 1) := ⟨n - i - 1, by omega⟩
  refine (draws_get_add i _ (m + 1) 0).trans ?_
  refine (congrArg (fun g => ((Gen.draws (m + 1) (Gen.draws i g).2).1[0]? : Option ρ)) (new_eq (D := uniform Param f) seeded a p hs)).trans ?_
  exact (congrArg (fun g => ((Gen.draws (m + 1) g).1[0]? : Option ρ)) (uniform_draws_state Param f p i (seeded s.toNat))).trans rfl

theorem gauss_draws_state (pair : σ → (ℝ × ℝ) × σ) (p : ℝ × ℝ) : ∀ (k : Nat) (e : σ),
    (Gen.draws (D := gauss pair) (2 * k) ⟨p, none, e⟩).2 = ⟨p, none, (fun e => (pair e).2)^[k] e⟩ := by
  intro k
  induction k with
  | zero => intro e; rfl
  | succ k ih => intro e; exact ih _

/-- **C115**: a generator of Gaussian numbers with mean `p.1`, standard deviation `p.2` and seed `s ≥ 0` returns the numbers of the pairs in order:
numbers `2 i` and `2 i + 1` are the two of the pair made by the engine seeded with `s` after `i` pairs, scaled and shifted. -/
theorem C115_gauss_numbers (pair : σ → (ℝ × ℝ) × σ) (a : σ) (p : ℝ × ℝ) (s : Int) (hs : 0 ≤ s) (n i : Nat) (hi : 2 * i + 1 < n) :
    let e := (fun e => (pair e).2)^[i] (seeded s.toNat)
    ((Gen.new (D := gauss pair) seeded a p s).draws n).1[2 * i]? = some ((pair e).1.1 * p.2 + p.1) ∧
    ((Gen.new (D := gauss pair) seeded a p s).draws n).1[2 * i + 1]? = some ((pair e).1.2 * p.2 + p.1) := by
  intro e
  obtain ⟨m, rfl⟩ : ∃ m, n = 2 * i + (m + 2) := ⟨n - 2 * i - 2, by omega⟩
  have h : ∀ j, ((Gen.new (D := gauss pair) seeded a p s).draws (2 * i + (m + 2))).1[2 * i + j]? = (Gen.draws (D := gauss pair) (m + 2) ⟨p, none, e⟩).1[j]? := by
    intro j
    refine (draws_get_add (2 * i) _ (m + 2) j).trans ?_
    refine (congrArg (fun g => ((Gen.draws (m + 2) (Gen.draws (2 * i) g).2).1[j]? : Option ℝ)) (new_eq (D := gauss pair) seeded a p hs)).trans ?_
    exact congrArg (fun g => ((Gen.draws (m + 2) g).1[j]? : Option ℝ)) (gauss_draws_state pair p i (seeded s.toNat))
  exact ⟨(h 0).trans rfl, (h 1).trans rfl⟩

/-- the fourth number of a Gaussian generator seeded with `7`, for an engine that counts -/
example : let pair : Nat → (ℝ × ℝ) × Nat := fun e => ((2 * e, e), e + 1)
    ((Gen.new (D := gauss pair) id 0 (1, 3) 7).draws 5).1[3]? = some 25 := by
  have h := (C115_gauss_numbers id (fun e : Nat => (((2 * e, e) : ℝ × ℝ), e + 1)) 0 (1, 3) 7 (by norm_num) 5 1 (by norm_num)).2
  refine h.trans ?_
  simp only [show Int.toNat 7 = 7 from rfl, Function.iterate_one, id]
  norm_num

/-- the third number of a uniform generator -/
example : ((Gen.new (D := uniform Nat fun p e => (p + e, 2 * e + 1)) id 0 (10 : Nat) 3).draws 4).1[2]? = some 25 :=
  C115_uniform_numbers id Nat (fun p e => (p + e, 2 * e + 1)) 0 10 3 (by norm_num) 4 2 (by norm_num)

end Limbo.Rng
