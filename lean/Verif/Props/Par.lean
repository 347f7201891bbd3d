import Verif.Lemmas.Par
import Verif.Lemmas.XtLaws
import Verif.Lemmas.F64Laws

/-!
# C24, C25 — the parallel tools

Every theorem quantifies over all reduction trees / all interleavings.
-/

namespace Limbo

open LawfulCmp

variable {T : Type}

/-! ## C24 par::max -/

/-- For every schedule of `n` steps the result is the initial value or one of the items, and no item (nor the initial value)
strictly beats it. -/
theorem C24_par_max_is_maximum (comp : T → T → Bool) (hcomp : StrictWeak comp) (init : T) (f : Nat → T) (n : Nat)
    (s : Sched) (hs : s.size = n) :
    (parMax init f comp s = init ∨ ∃ i < n, parMax init f comp s = f i) ∧
    comp init (parMax init f comp s) = false ∧ ∀ i < n, comp (f i) (parMax init f comp s) = false := by
  have hok : MaxOk comp (fun _ => True) :=
    ⟨fun _ _ _ _ => trivial, hcomp.irrefl, fun a b h => by
      cases h' : comp b a with
      | false => rfl
      | true => have := hcomp.trans _ _ _ h h'; rw [hcomp.irrefl] at this; simp at this,
      fun a b c _ => hcomp.negTrans a b c⟩
  obtain ⟨-, h1, h2, h3⟩ := parMaxFrom_spec (f := f) hok init trivial s 0 init trivial
  refine ⟨?_, h2, fun i hi => h3 i (by omega) (by omega)⟩
  rcases h1 with h1 | h1 | ⟨i, _, hi, h⟩
  · exact Or.inl h1
  · exact Or.inl h1
  · exact Or.inr ⟨i, by omega, h⟩

/-- The serial fall-back and any parallel execution agree up to ties, and so do any two parallel executions. -/
theorem C24_par_max_schedule_independent (comp : T → T → Bool) (hcomp : StrictWeak comp) (init : T) (f : Nat → T) (n : Nat)
    (s s' : Sched) (hs : s.size = n) (hs' : s'.size = n) :
    Ties comp (parMax init f comp s) (parMax init f comp s') ∧
    Ties comp (parMax init f comp s) (parMaxSerial init n f comp) := by
  have key : ∀ s s' : Sched, s.size = n → s'.size = n → comp (parMax init f comp s) (parMax init f comp s') = false := by
    intro s s' hs hs'
    obtain ⟨h1, -, -⟩ := C24_par_max_is_maximum comp hcomp init f n s hs
    obtain ⟨-, h2, h3⟩ := C24_par_max_is_maximum comp hcomp init f n s' hs'
    rcases h1 with h1 | ⟨i, hi, h1⟩
    · rw [h1]; exact h2
    · rw [h1]; exact h3 i hi
  have hser : parMaxSerial init n f comp = parMax init f comp (.chunk n) := rfl
  refine ⟨⟨key s s' hs hs', key s' s hs' hs⟩, ?_⟩
  rw [hser]
  exact ⟨key _ _ hs rfl, key _ _ rfl hs⟩

/-- The comparison the library uses (`v1.second > v2.second` on doubles) is not a strict weak order because of NaN;
the statement still holds provided the initial value is not NaN: items whose value is NaN are never selected and all the
others are beaten or equalled. -/
theorem C24_par_max_with_nan {α : Type} [Scalar α] [LawfulCmp α] (key : T → α) (init : T) (hinit : isNaN (key init) = false)
    (f : Nat → T) (n : Nat) (s : Sched) (hs : s.size = n) (m : T)
    (hm : m = parMax init f (fun a b => lt (key b) (key a)) s) :
    (m = init ∨ ∃ i < n, m = f i) ∧ isNaN (key m) = false ∧ lt (key m) (key init) = false ∧
    ∀ i < n, lt (key m) (key (f i)) = false := by
  subst hm
  have hok : MaxOk (fun a b : T => lt (key b) (key a)) (fun a => isNaN (key a) = false) :=
    ⟨fun v c h _ => (not_nan_of_lt h).2, fun a => lt_irrefl' _, fun a b h => lt_asymm' h, by
      intro a b c hb hab hbc
      show lt (key c) (key a) = false
      by_contra hcon
      have h : lt (key c) (key a) = true := by simpa using hcon
      obtain ⟨hc, ha⟩ := not_nan_of_lt h
      have h1 : le (key a) (key b) = true := le_of_not_lt hb ha hab
      have h2 : le (key b) (key c) = true := le_of_not_lt hc hb hbc
      have := lt_of_le_of_lt (le_trans _ _ _ h1 h2) h
      rw [lt_irrefl'] at this; simp at this⟩
  obtain ⟨h0, h1, h2, h3⟩ := parMaxFrom_spec (f := f) hok init hinit s 0 init hinit
  refine ⟨?_, h0, h2, fun i hi => h3 i (by omega) (by omega)⟩
  rcases h1 with h1 | h1 | ⟨i, _, hi, h⟩
  · exact Or.inl h1
  · exact Or.inl h1
  · exact Or.inr ⟨i, by omega, h⟩

/-- Which of several tied items is returned does depend on the schedule: two schedules of the same two tied items. -/
theorem C24_ties_depend_on_schedule :
    ∃ (comp : Nat × Nat → Nat × Nat → Bool) (f : Nat → Nat × Nat) (s s' : Sched), StrictWeak comp ∧ s.size = s'.size ∧
      parMax (0, 0) f comp s ≠ parMax (0, 0) f comp s' := by
  refine ⟨fun a b => decide (b.1 < a.1), fun i => (1, i), .chunk 2, .fork (.chunk 1) (.chunk 1), ⟨?_, ?_, ?_⟩, rfl, by decide⟩
  · intro a; simp
  · intro a b c; simp only [decide_eq_true_eq]; omega
  · intro a b c; simp only [decide_eq_false_iff_not]; omega

-- hypotheses met: natural-number items compared by `>`, a schedule with a fork and a resumed body
example : parMax 3 (fun i => [2, 7, 5, 1].getD i 0) (fun a b => decide (b < a))
    (.fork (.seq (.chunk 1) (.chunk 1)) (.chunk 2)) = 7 := by decide
example : StrictWeak (fun a b : Nat => decide (b < a)) :=
  ⟨fun a => by simp, fun a b c => by simp only [decide_eq_true_eq]; omega,
   fun a b c => by simp only [decide_eq_false_iff_not]; omega⟩
example : isNaN (F64.of 3) = false ∧
    parMax (F64.of 3) (fun i => [F64.nan, F64.of 7, F64.nan].getD i F64.nan) (fun a b => lt b a)
      (.fork (.chunk 1) (.fork (.chunk 1) (.chunk 1))) = F64.of 7 := by decide +kernel

/-! ## C25 parallel loops -/

/-- If the actions of different iterations commute, every interleaving has the effect of the serial loop. -/
theorem C25_loop_commuting {σ : Type} (body : Nat → List (σ → σ)) (begin n : Nat) (out : List (Nat × (σ → σ)))
    (h : IsInterleaving body begin n out)
    (hc : ∀ i j, i ≠ j → ∀ a ∈ body i, ∀ b ∈ body j, ∀ s, a (b s) = b (a s)) (s : σ) :
    runTagged out s = serialLoop body begin n s :=
  interleaving_eq_serial body n begin out h (fun i j hij _ _ _ _ => hc i j hij) s

/-- If no iteration writes a location another iteration reads or writes, every interleaving of the iterations' reads and
writes leaves the memory the serial loop leaves. -/
theorem C25_loop_disjoint_locations {Loc V : Type} (body : Nat → List ((Loc → V) → (Loc → V))) (begin n : Nat)
    (R W : Nat → Set Loc) (hfoot : ∀ i, ∀ a ∈ body i, Footprint a (R i) (W i))
    (hdisj : ∀ i j, i ≠ j → ∀ l ∈ W i, l ∉ R j ∧ l ∉ W j)
    (out : List (Nat × ((Loc → V) → (Loc → V)))) (h : IsInterleaving body begin n out) (m : Loc → V) :
    runTagged out m = serialLoop body begin n m :=
  C25_loop_commuting body begin n out h
    (fun i j hij a ha b hb s => footprint_commute (hfoot i a ha) (hfoot j b hb) (hdisj i j hij) (hdisj j i hij.symm) s) m

/-- The same for `for_each` over a container. -/
theorem C25_for_each_disjoint_locations {Loc V A : Type} (items : List A) (f : A → List ((Loc → V) → (Loc → V)))
    (R W : Nat → Set Loc) (hfoot : ∀ i x, items[i]? = some x → ∀ a ∈ f x, Footprint a (R i) (W i))
    (hdisj : ∀ i j, i ≠ j → ∀ l ∈ W i, l ∉ R j ∧ l ∉ W j)
    (out : List (Nat × ((Loc → V) → (Loc → V)))) (h : IsInterleaving (forEachBody items f) 0 items.length out) (m : Loc → V) :
    runTagged out m = serialLoop (forEachBody items f) 0 items.length m := by
  refine C25_loop_disjoint_locations _ _ _ R W ?_ hdisj out h m
  intro i a ha
  unfold forEachBody at ha
  split at ha
  · rename_i x hx; exact hfoot i x hx a ha
  · simp at ha

/-- `replicate`: if the replicated actions commute with each other, every interleaving has the effect of the serial version. -/
theorem C25_replicate {σ : Type} (f : List (σ → σ)) (nb : Nat) (hc : ∀ a ∈ f, ∀ b ∈ f, ∀ s, a (b s) = b (a s))
    (out : List (Nat × (σ → σ))) (h : IsInterleaving (replicateBody f) 0 nb out) (s : σ) :
    runTagged out s = serialLoop (replicateBody f) 0 nb s :=
  C25_loop_commuting _ 0 nb out h (fun _ _ _ a ha b hb s => hc a ha b hb s) s

/-- A loop whose iterations append to a shared list under a mutex (each append is one action) yields a permutation of the
serial result, for every schedule. -/
theorem C25_loop_mutex_append {A : Type} (app : Nat → List (List A)) (begin n : Nat)
    (out : List (Nat × (List A → List A)))
    (h : IsInterleaving (fun i => (app i).map (fun xs s => s ++ xs)) begin n out) (s : List A) :
    (runTagged out s).Perm (serialLoop (fun i => (app i).map (fun xs s => s ++ xs)) begin n s) := by
  rw [serialLoop_eq]
  have hp := interleaving_perm _ n begin out h
  have hmem : ∀ a ∈ out.map Prod.snd, ∃ xs : List A, a = fun s => s ++ xs := by
    intro a ha
    rw [List.mem_map] at ha
    obtain ⟨x, hx, rfl⟩ := ha
    have hb := h.2 x hx
    have : x.2 ∈ (app x.1).map (fun xs s => s ++ xs) := by
      have e := h.1 x.1 hb.1 hb.2
      simp only at e
      rw [← e, List.mem_map]; exact ⟨x, by simp [hx], rfl⟩
    rw [List.mem_map] at this
    obtain ⟨xs, -, e⟩ := this
    exact ⟨xs, e.symm⟩
  have gen : ∀ (l1 l2 : List (List A → List A)), l1.Perm l2 → (∀ a ∈ l1, ∃ xs : List A, a = fun s => s ++ xs) →
      ∀ s t : List A, s.Perm t → (runActions l1 s).Perm (runActions l2 t) := by
    intro l1 l2 hp
    induction hp with
    | nil => intro _ s t hst; exact hst
    | cons a _ ih =>
      intro hm s t hst
      obtain ⟨xs, rfl⟩ := hm a (by simp)
      exact ih (fun b hb => hm b (by simp [hb])) _ _ (hst.append_right xs)
    | @swap a b l =>
      intro hm s t hst
      obtain ⟨xs, rfl⟩ := hm a (by simp)
      obtain ⟨ys, rfl⟩ := hm b (by simp)
      simp only [runActions]
      have hl : ∀ (l : List (List A → List A)), (∀ c ∈ l, ∃ zs : List A, c = fun s => s ++ zs) → ∀ u v : List A, u.Perm v →
          (runActions l u).Perm (runActions l v) := by
        intro l
        induction l with
        | nil => intro _ u v huv; exact huv
        | cons c l ih =>
          intro hm' u v huv
          obtain ⟨zs, rfl⟩ := hm' c (by simp)
          exact ih (fun d hd => hm' d (by simp [hd])) _ _ (huv.append_right zs)
      refine hl l (fun c hc => hm c (by simp [hc])) _ _ ?_
      rw [List.append_assoc, List.append_assoc]
      exact hst.append List.perm_append_comm
    | trans h1 _ ih1 ih2 =>
      intro hm s t hst
      exact (ih1 hm s s (List.Perm.refl _)).trans (ih2 (fun a ha => hm a (h1.mem_iff.2 ha)) s t hst)
  exact gen _ _ hp hmem s s (List.Perm.refl _)

/-- `par::sort` against `std::sort`: any two sorted rearrangements of the same data agree position by position up to ties
(so they are equal when ties are identical elements). -/
theorem C25_sort_agrees (comp : T → T → Bool) (hcomp : StrictWeak comp) (data out1 out2 : List T)
    (h1 : out1.Perm data) (h2 : out2.Perm data) (s1 : SortedFor comp out1) (s2 : SortedFor comp out2) :
    out1.length = out2.length ∧
    (∀ (i : Nat) (a b : T), out1[i]? = some a → out2[i]? = some b → Ties comp a b) ∧
    ((∀ a b, Ties comp a b → a = b) → out1 = out2) := by
  have hasym : ∀ a b, comp a b = true → comp b a = false := fun a b h => by
    cases h' : comp b a with
    | false => rfl
    | true => have := hcomp.trans _ _ _ h h'; rw [hcomp.irrefl] at this; simp at this
  let r : Setoid T := ⟨Ties comp, fun a => ⟨hcomp.irrefl a, hcomp.irrefl a⟩, fun h => ⟨h.2, h.1⟩,
    fun h h' => ⟨hcomp.negTrans _ _ _ h.1 h'.1, hcomp.negTrans _ _ _ h'.2 h.2⟩⟩
  let le' : Quotient r → Quotient r → Prop := Quotient.lift₂ (fun a b => comp b a = false) (by
    intro a b a' b' ha hb
    have ha : Ties comp a a' := ha
    have hb : Ties comp b b' := hb
    apply propext
    constructor
    · intro h; exact hcomp.negTrans _ _ _ hb.2 (hcomp.negTrans _ _ _ h ha.1)
    · intro h; exact hcomp.negTrans _ _ _ hb.1 (hcomp.negTrans _ _ _ h ha.2))
  have hq : out1.map (Quotient.mk r) = out2.map (Quotient.mk r) := by
    refine List.Perm.eq_of_pairwise (le := le') ?_ ?_ ?_ ((h1.trans h2.symm).map _)
    · intro a b _ _
      refine Quotient.inductionOn₂ a b ?_
      intro a b hab hba
      exact Quotient.sound ⟨hba, hab⟩
    · rw [List.pairwise_map]; exact s1
    · rw [List.pairwise_map]; exact s2
  have hlen : out1.length = out2.length := by simpa using congrArg List.length hq
  have hpt : ∀ (i : Nat) (a b : T), out1[i]? = some a → out2[i]? = some b → Ties comp a b := by
    intro i a b ha hb
    have := congrArg (fun l => l[i]?) hq
    simp only [List.getElem?_map, ha, hb, Option.map_some, Option.some.injEq] at this
    exact Quotient.exact this
  refine ⟨hlen, hpt, fun he => ?_⟩
  apply List.ext_getElem? 
  intro i
  rcases Nat.lt_or_ge i out1.length with hi | hi
  · have hi2 : i < out2.length := by omega
    have := he _ _ (hpt i _ _ (List.getElem?_eq_getElem hi) (List.getElem?_eq_getElem hi2))
    rw [List.getElem?_eq_getElem hi, List.getElem?_eq_getElem hi2, this]
  · rw [List.getElem?_eq_none hi, List.getElem?_eq_none (by omega)]

-- hypotheses met: two iterations of two actions each, writing their own slot, interleaved
private def wr (i v : Nat) : (Nat → Nat) → (Nat → Nat) := fun m l => if l = i then m 7 + v else m l
example : IsInterleaving (fun i => [wr i 1, wr i 2]) 0 2 [(1, wr 1 1), (0, wr 0 1), (0, wr 0 2), (1, wr 1 2)] := by
  refine ⟨?_, ?_⟩
  · intro i h1 h2
    have : i = 0 ∨ i = 1 := by omega
    rcases this with rfl | rfl <;> rfl
  · intro p hp; simp at hp; rcases hp with rfl | rfl | rfl | rfl <;> simp
example (i v : Nat) : Footprint (wr i v) {7} {i} :=
  ⟨fun m l hl => by
     have : l ≠ i := hl
     simp [wr, this],
   fun m m' h l hl => by
     have : l = i := hl
     simp [wr, this, h 7 rfl]⟩
example : SortedFor (fun a b : Nat => decide (a < b)) [1, 2, 2, 5] := by simp [SortedFor]

end Limbo
