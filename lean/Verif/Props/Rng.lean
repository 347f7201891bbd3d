import Verif.Spec.Rng
import Mathlib.Tactic.Linarith
import Mathlib.Tactic.NormNum
import Mathlib.Algebra.Ring.Parity
import Mathlib.Data.List.Induction
import Mathlib.Tactic.Ring

/-!
**C115**: what seeding a random generator does.  **C116**: random generators and threads.
-/

namespace Limbo.Rng

variable {σ ρ : Type} {D : Dist σ ρ} (seeded : Nat → σ)

theorem runOps_param : ∀ (ops : List (Op D)) (g : Gen D), (runOps seeded ops g).param = lastParam ops g.param := by
  intro ops
  induction ops with
  | nil => intro g; rfl
  | cons o os ih => intro g; cases o <;> exact ih _

theorem new_eq (auto : σ) (p : D.Param) {s : Int} (h : 0 ≤ s) : Gen.new (D := D) seeded auto p s = ⟨p, D.fresh, seeded s.toNat⟩ := by
  simp [Gen.new, Gen.seed, h]

/-- **C115**: after any history of calls, seeding a generator of uniform numbers with `s ≥ 0` gives the sequence of a new generator with the
seed `s` and the last parameters set. -/
theorem C115_uniform_restarts (Param : Type) (f : Param → σ → ρ × σ) (a0 a a' : σ) (p0 : Param) (s0 s : Int) (hs : 0 ≤ s) (ops : List (Op (uniform Param f))) (n : Nat) :
    (((runOps seeded ops (Gen.new seeded a0 p0 s0)).seed seeded a s).draws n).1 = ((Gen.new (D := uniform Param f) seeded a' (lastParam ops p0) s).draws n).1 := by
  have h := runOps_param seeded ops (Gen.new (D := uniform Param f) seeded a0 p0 s0)
  generalize runOps seeded ops (Gen.new (D := uniform Param f) seeded a0 p0 s0) = g at h ⊢
  rw [new_eq seeded a' _ hs]
  have h' : g.param = lastParam ops p0 := h
  obtain ⟨p, sv, e⟩ := g
  simp only at h'
  subst h'
  simp only [Gen.seed, if_pos hs]
  rfl

variable (pair : σ → (ℝ × ℝ) × σ)

/-- a number is kept exactly after an odd number of draws -/
theorem gauss_saved : ∀ (ops : List (Op (gauss pair))) (g : Gen (gauss pair)) (n : Nat), (g.saved.isSome = true ↔ Odd n) →
    ((runOps seeded ops g).saved.isSome = true ↔ Odd (drawsSinceReset ops n)) := by
  intro ops
  induction ops with
  | nil => intro g n h; exact h
  | cons o os ih =>
    intro g n h
    cases o with
    | rand =>
      refine ih _ _ ?_
      obtain ⟨p, sv, e⟩ := g
      cases sv with
      | none =>
        have h : ¬ Odd n := by simpa using h
        simp only [Gen.rand, gauss, Option.isSome_some, true_iff]
        rw [Nat.odd_add_one]; exact h
      | some v =>
        have h : Odd n := by simpa using h
        simp only [Gen.rand, gauss, Option.isSome_none, Bool.false_eq_true, false_iff]
        rw [Nat.odd_add_one, not_not]; exact h
    | seed s a => exact ih _ _ h
    | reset => exact ih _ _ (by simp [Gen.reset, gauss])
    | param p => exact ih _ _ h

/-- **C115**: a generator of Gaussian numbers restarts when the number of draws since the last `reset()` is even ... -/
theorem C115_gauss_even_restarts (a0 a a' : σ) (p0 : ℝ × ℝ) (s0 s : Int) (hs : 0 ≤ s) (ops : List (Op (gauss pair))) (heven : Even (drawsSinceReset ops 0)) (n : Nat) :
    (((runOps seeded ops (Gen.new seeded a0 p0 s0)).seed seeded a s).draws n).1 = ((Gen.new (D := gauss pair) seeded a' (lastParam ops p0) s).draws n).1 := by
  have h := runOps_param seeded ops (Gen.new (D := gauss pair) seeded a0 p0 s0)
  have h2 := gauss_saved seeded pair ops (Gen.new (D := gauss pair) seeded a0 p0 s0) 0 (by simp [Gen.new, Gen.seed, gauss])
  generalize runOps seeded ops (Gen.new (D := gauss pair) seeded a0 p0 s0) = g at h h2 ⊢
  rw [new_eq seeded a' _ hs]
  have h' : g.param = lastParam ops p0 := h
  obtain ⟨p, sv, e⟩ := g
  simp only at h' h2
  subst h'
  have : sv = none := by
    cases sv with
    | none => rfl
    | some v => exact absurd (h2.1 rfl) (Nat.not_odd_iff_even.2 heven)
  subst this
  simp only [Gen.seed, if_pos hs]
  rfl

/-- **C115, disagreement**: ... but after an odd number of draws the first number after seeding does not depend on the seed at all, and the
sequence of the seed only starts after it. -/
theorem C115_gauss_odd_does_not_restart (a0 : σ) (p0 : ℝ × ℝ) (s0 : Int) (ops : List (Op (gauss pair))) (hodd : Odd (drawsSinceReset ops 0)) :
    ∃ v : ℝ, ∀ (a a' : σ) (s : Int), 0 ≤ s → ∀ n,
      (((runOps seeded ops (Gen.new seeded a0 p0 s0)).seed seeded a s).draws (n + 1)).1 = v :: ((Gen.new (D := gauss pair) seeded a' (lastParam ops p0) s).draws n).1 := by
  have h := runOps_param seeded ops (Gen.new (D := gauss pair) seeded a0 p0 s0)
  have h2 := gauss_saved seeded pair ops (Gen.new (D := gauss pair) seeded a0 p0 s0) 0 (by simp [Gen.new, Gen.seed, gauss])
  generalize runOps seeded ops (Gen.new (D := gauss pair) seeded a0 p0 s0) = g at h h2 ⊢
  have h' : g.param = lastParam ops p0 := h
  obtain ⟨p, sv, e⟩ := g
  simp only at h' h2
  subst h'
  obtain ⟨v, rfl⟩ := Option.isSome_iff_exists.1 (h2.2 hodd)
  refine ⟨v * (lastParam ops p0).2 + (lastParam ops p0).1, fun a a' s hs n => ?_⟩
  rw [new_eq seeded a' _ hs]
  simp only [Gen.seed, if_pos hs]
  rfl

/-- **C115**: `seed(s)` together with `reset()`, in either order, always restarts the sequence, whatever the distribution. -/
theorem C115_seed_and_reset (a0 a a' : σ) (p0 : D.Param) (s0 s : Int) (hs : 0 ≤ s) (ops : List (Op D)) (n : Nat) :
    (((runOps seeded ops (Gen.new seeded a0 p0 s0)).seed seeded a s).reset.draws n).1 = ((Gen.new (D := D) seeded a' (lastParam ops p0) s).draws n).1 ∧
    (((runOps seeded ops (Gen.new seeded a0 p0 s0)).reset.seed seeded a s).draws n).1 = ((Gen.new (D := D) seeded a' (lastParam ops p0) s).draws n).1 := by
  have h := runOps_param seeded ops (Gen.new (D := D) seeded a0 p0 s0)
  generalize runOps seeded ops (Gen.new (D := D) seeded a0 p0 s0) = g at h ⊢
  rw [new_eq seeded a' _ hs]
  have h' : g.param = lastParam ops p0 := h
  obtain ⟨p, sv, e⟩ := g
  simp only at h'
  subst h'
  simp only [Gen.seed, Gen.reset, if_pos hs, and_self]

/-- a history with three draws: after `seed(7)` the generator returns `5`, and only then `14`, the first number of a new one -/
example : let pair : Nat → (ℝ × ℝ) × Nat := fun e => ((2 * e, e), e + 1)
    let ops : List (Op (gauss pair)) := [.rand, .rand, .param (0, 1), .rand]
    Odd (drawsSinceReset ops 0) ∧ (((runOps id ops (Gen.new id 0 (1, 2) 4)).seed id 0 7).draws 2).1 = [5, 14] ∧ ((Gen.new (D := gauss pair) id 0 (0, 1) 7).draws 2).1 = [14, 7] := by
  refine ⟨⟨1, rfl⟩, ?_, ?_⟩
  · simp only [runOps, Gen.new, Gen.seed, Gen.rand, Gen.draws, gauss, Gen.setParam, show Int.toNat 4 = 4 from rfl, show Int.toNat 7 = 7 from rfl]; norm_num
  · simp only [Gen.new, Gen.seed, Gen.rand, Gen.draws, gauss, show Int.toNat 7 = 7 from rfl]; norm_num

/-! ### threads -/

theorem draws_snoc : ∀ (n : Nat) (g : Gen D), (g.draws (n + 1)).1 = (g.draws n).1 ++ [(g.draws n).2.rand.1] ∧ (g.draws (n + 1)).2 = (g.draws n).2.rand.2 := by
  intro n
  induction n with
  | zero => intro g; exact ⟨rfl, rfl⟩
  | succ n ih =>
    intro g
    obtain ⟨h1, h2⟩ := ih g.rand.2
    refine ⟨?_, h2⟩
    show g.rand.1 :: (Gen.draws (n + 1) g.rand.2).1 = g.rand.1 :: (Gen.draws n g.rand.2).1 ++ _
    rw [h1]; rfl

theorem outOf_snoc (i : Nat) (t : Threads D) (gens : Nat → Gen D) (l : Nat → Option (Gen D)) (j : Nat) (v : ρ) :
    outOf i ⟨gens, l, t.out ++ [(j, v)]⟩ = if j = i then outOf i t ++ [v] else outOf i t := by
  unfold outOf
  by_cases h : j = i <;> simp [List.filter_append, h]

/-- **C116**: with one generator per thread (as in `random_vector_bounded` and `random_vector_unbounded`), for every schedule each thread gets
exactly the sequence of its own generator. -/
theorem C116_thread_local (owner : Nat → Nat) (hinj : ∀ i j, owner i = owner j → i = j) (gens : Nat → Gen D) (sched : List Nat) (i : Nat) :
    ∃ n, outOf i ((Threads.start gens).run owner sched) = ((gens (owner i)).draws n).1 ∧ sched.count i / 2 = n := by
  suffices h : ∀ (sched : List Nat), ∃ n, outOf i ((Threads.start gens).run owner sched) = ((gens (owner i)).draws n).1 ∧
      ((Threads.start gens).run owner sched).gens (owner i) = ((gens (owner i)).draws n).2 ∧
      ((((Threads.start gens).run owner sched).loaded i = none ∧ sched.count i = 2 * n) ∨
       (((Threads.start gens).run owner sched).loaded i = some ((gens (owner i)).draws n).2 ∧ sched.count i = 2 * n + 1)) by
    obtain ⟨n, h1, -, h3⟩ := h sched
    exact ⟨n, h1, by omega⟩
  intro sched
  induction sched using List.reverseRecOn with
  | nil => exact ⟨0, rfl, rfl, Or.inl ⟨rfl, rfl⟩⟩
  | append_singleton sched j ih =>
    obtain ⟨n, h1, h2, h3⟩ := ih
    have hr : (Threads.start gens).run owner (sched ++ [j]) = ((Threads.start gens).run owner sched).step owner j := by
      simp [Threads.run, List.foldl_append]
    rw [hr]
    generalize (Threads.start gens).run owner sched = t at h1 h2 h3
    by_cases hj : j = i
    · subst hj
      rcases h3 with ⟨h3, h4⟩ | ⟨h3, h4⟩
      · refine ⟨n, ?_, ?_, Or.inr ⟨?_, by simp [h4]⟩⟩ <;> simp only [Threads.step, h3]
        · exact h1
        · exact h2
        · rw [if_pos trivial, h2]
      · obtain ⟨d1, d2⟩ := draws_snoc n (gens (owner j))
        refine ⟨n + 1, ?_, ?_, Or.inl ⟨?_, by simp [h4]; ring⟩⟩ <;> simp only [Threads.step, h3]
        · rw [outOf_snoc, if_pos rfl, h1, d1]
        · rw [if_pos trivial, d2]
        · rw [if_pos trivial]
    · have hc : (sched ++ [j]).count i = sched.count i := by simp [hj]
      have ho : owner i ≠ owner j := fun h => hj (hinj _ _ h).symm
      rw [hc]
      refine ⟨n, ?_, ?_, ?_⟩
      all_goals
        unfold Threads.step
        split
      · exact h1
      · rw [outOf_snoc, if_neg hj]; exact h1
      · exact h2
      · simp only [if_neg ho]; exact h2
      · simp only [if_neg (Ne.symm hj)]; exact h3
      · simp only [if_neg (Ne.symm hj)]; exact h3

/-- **C116**: on a shared generator, calls that do not overlap share out its sequence: every number is given out exactly once, in order. -/
theorem C116_without_overlap (gens : Nat → Gen D) (calls : List Nat) :
    (((Threads.start gens).run (fun _ => 0) (calls.flatMap fun i => [i, i])).out.map (·.2)) = ((gens 0).draws calls.length).1 ∧
    (((Threads.start gens).run (fun _ => 0) (calls.flatMap fun i => [i, i])).out.map (·.1)) = calls := by
  suffices h : ∀ calls : List Nat, ∃ gs out, (Threads.start gens).run (fun _ => 0) (calls.flatMap fun i => [i, i]) = ⟨gs, fun _ => none, out⟩ ∧
      gs 0 = ((gens 0).draws calls.length).2 ∧ out.map (·.2) = ((gens 0).draws calls.length).1 ∧ out.map (·.1) = calls by
    obtain ⟨gs, out, h1, -, h2, h3⟩ := h calls
    rw [h1]; exact ⟨h2, h3⟩
  intro calls
  induction calls using List.reverseRecOn with
  | nil => exact ⟨gens, [], rfl, rfl, rfl, rfl⟩
  | append_singleton calls i ih =>
    obtain ⟨gs, out, h1, h2, h3, h4⟩ := ih
    obtain ⟨d1, d2⟩ := draws_snoc calls.length (gens 0)
    have hr : (Threads.start gens).run (fun _ => 0) ((calls ++ [i]).flatMap fun i => [i, i]) =
        (((Threads.start gens).run (fun _ => 0) (calls.flatMap fun i => [i, i])).step (fun _ => 0) i).step (fun _ => 0) i := by
      simp [Threads.run, List.foldl_append]
    rw [hr, h1]
    refine ⟨fun k => if k = 0 then (gs 0).rand.2 else gs k, out ++ [(i, (gs 0).rand.1)], ?_, ?_, ?_, ?_⟩
    · simp only [Threads.step, if_true, Threads.mk.injEq, and_true, true_and]
      funext j
      by_cases hj : j = i <;> simp [hj]
    · simp only [if_true, List.length_append, List.length_singleton, h2, d2]
    · simp only [List.map_append, List.map_cons, List.map_nil, List.length_append, List.length_singleton, h3, d1, h2]
    · simp [h4]

/-- **C116, disagreement**: `RandomGenerator` is not "mutex-protected": from every state of a shared generator there is a schedule of two calls
by two threads in which both get the same number, and one draw is lost. -/
theorem C116_shared_generator_repeats (gens : Nat → Gen D) (i j : Nat) (hij : i ≠ j) :
    ((Threads.start gens).run (fun _ => 0) [i, j, i, j]).out = [(i, (gens 0).rand.1), (j, (gens 0).rand.1)] ∧
    ((Threads.start gens).run (fun _ => 0) [i, j, i, j]).gens 0 = (gens 0).rand.2 := by
  simp [Threads.run, Threads.step, Threads.start, hij, hij.symm]

/-- three threads with a generator each, in the middle of their calls -/
example : let D : Dist Nat Nat := uniform Unit fun _ e => (10 * e, e + 1)
    let gens : Nat → Gen D := fun i => ⟨(), (), i⟩
    outOf 1 ((Threads.start gens).run id [0, 1, 2, 1, 0, 1, 2, 1, 1]) = [10, 20] := by decide

end Limbo.Rng
