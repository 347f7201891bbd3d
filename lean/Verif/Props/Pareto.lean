import Verif.Lemmas.Pareto
import Verif.Lemmas.F64Laws
import Verif.Props.Par

/-! # C57–C58 — Pareto sets -/

namespace Limbo

set_option linter.unusedSectionVars false
variable {α P : Type} [Scalar α] [LawfulCmp α]
open LawfulCmp

/-! ## C58 dominance -/

/-- On vectors without NaN of equal length the function `dominate` decides Pareto dominance. -/
theorem C58_dominate_decides (d : Nat) (a b : List α) (ha : GoodObjs d a) (hb : GoodObjs d b) : dominate a b = true ↔ Dominates a b :=
  dominate_iff ha hb

/-- `dominate_flag` is `1` iff the first dominates, `-1` iff the second does, `0` otherwise. -/
theorem C58_dominate_flag (d : Nat) (a b : List α) (ha : GoodObjs d a) (hb : GoodObjs d b) :
    (dominateFlag a b = 1 ↔ Dominates a b) ∧ (dominateFlag a b = -1 ↔ Dominates b a) ∧
    (dominateFlag a b = 1 ∨ dominateFlag a b = -1 ∨ dominateFlag a b = 0) := by
  have hsym : ∀ (a b : List α), domFlags b a false false = ((domFlags a b false false).2, (domFlags a b false false).1) := by
    intro a b
    obtain ⟨h1, h2⟩ := domFlags_spec a b
    obtain ⟨h3, h4⟩ := domFlags_spec b a
    apply Prod.ext
    · rw [Bool.eq_iff_iff, h3, h2]
      exact ⟨fun ⟨i, x, y, hx, hy, h⟩ => ⟨i, y, x, hy, hx, h⟩, fun ⟨i, x, y, hx, hy, h⟩ => ⟨i, y, x, hy, hx, h⟩⟩
    · rw [Bool.eq_iff_iff, h4, h1]
      exact ⟨fun ⟨i, x, y, hx, hy, h⟩ => ⟨i, y, x, hy, hx, h⟩, fun ⟨i, x, y, hx, hy, h⟩ => ⟨i, y, x, hy, hx, h⟩⟩
  have e1 := dominate_iff ha hb
  have e2 := dominate_iff hb ha
  unfold dominate at e1 e2
  rw [beq_iff_eq] at e1 e2
  refine ⟨e1, ?_, ?_⟩
  · rw [← e2]
    unfold dominateFlag
    rw [hsym a b]
    generalize domFlags a b false false = q
    obtain ⟨x, y⟩ := q
    cases x <;> cases y <;> simp
  · unfold dominateFlag
    generalize domFlags a b false false = q
    obtain ⟨x, y⟩ := q
    cases x <;> cases y <;> simp

/-- Dominance is irreflexive, asymmetric and transitive. -/
theorem C58_dominance_strict_order (d : Nat) (a b c : List α) (ha : GoodObjs d a) (hb : GoodObjs d b) (hc : GoodObjs d c) :
    dominate a a = false ∧ (dominate a b = true → dominate b a = false) ∧
    (dominate a b = true → dominate b c = true → dominate a c = true) := by
  have hirr : ∀ a : List α, GoodObjs d a → dominate a a = false := by
    intro a ha
    rw [← Bool.not_eq_true, dominate_iff ha ha]
    exact Dominates.irrefl a
  have htr : ∀ a b c : List α, GoodObjs d a → GoodObjs d b → GoodObjs d c → dominate a b = true → dominate b c = true → dominate a c = true := by
    intro a b c ha hb hc h1 h2
    rw [dominate_iff ha hb] at h1
    rw [dominate_iff hb hc] at h2
    rw [dominate_iff ha hc]
    exact h1.trans (ha.1.trans hb.1.symm) (hb.1.trans hc.1.symm) h2
  refine ⟨hirr a ha, fun h => ?_, htr a b c ha hb hc⟩
  cases h' : dominate b a with
  | false => rfl
  | true => have := htr a b a ha hb ha h h'; rw [hirr a ha] at this; simp at this

/-- With NaN objectives dominance can be cyclic; the front of a non-empty population is then empty. -/
theorem C58_nan_cycle : ∃ a b c : List F64, dominate a b = true ∧ dominate b c = true ∧ dominate c a = true ∧
    [a, b, c].filter (fun x => nonDominated id x [a, b, c]) = [] :=
  ⟨[F64.of 1, F64.of 0, F64.nan], [F64.of 0, F64.nan, F64.of 1], [F64.nan, F64.of 1, F64.of 0], by decide +kernel, by decide +kernel,
    by decide +kernel, by decide +kernel⟩

example : GoodObjs 2 [F64.of 1, F64.of 2] ∧ dominate [F64.of 1, F64.of 2] [F64.of 1, F64.of 1] = true ∧
    dominateFlag [F64.of 1, F64.of 2] [F64.of 2, F64.of 1] = 0 := ⟨⟨rfl, by decide⟩, by decide +kernel, by decide +kernel⟩

/-! ## C57 pareto_set -/

open Classical in
/-- For every schedule: the result is a rearrangement of the elements that no element dominates (with multiplicity); every element is in
it or dominated by a member of it; it is in descending lexicographic order; it is not empty. -/
theorem C57_pareto_set (d : Nat) (obj : P → List α) (v : List P) (hgood : ∀ x ∈ v, GoodObjs d (obj x)) (result : List P)
    (h : ParetoSet obj v result) :
    result.Perm (v.filter fun x => decide (∀ y ∈ v, ¬ Dominates (obj y) (obj x))) ∧
    (∀ x ∈ v, ∃ y ∈ result, y = x ∨ Dominates (obj y) (obj x)) ∧
    result.Pairwise (fun x y => ¬ LexGreater (obj y) (obj x)) ∧
    result ≠ [] := by
  obtain ⟨⟨x0, hx0, -⟩, out, hout, hperm, hsort⟩ := h
  have hv : x0 ∈ v := List.mem_of_head? hx0
  have hser : (runTagged out []).Perm (v.filter fun x => nonDominated obj (obj x) v) := by
    rw [paretoBody_eq] at hout
    have := C25_loop_mutex_append _ 0 v.length out hout []
    rw [← paretoBody_eq, serial_pareto obj v v.length 0 [] (by omega)] at this
    simpa using this
  have hfil : (v.filter fun x => nonDominated obj (obj x) v) = v.filter fun x => decide (∀ y ∈ v, ¬ Dominates (obj y) (obj x)) := by
    apply List.filter_congr
    intro x hx
    rw [Bool.eq_iff_iff, nonDominated_iff, decide_eq_true_eq]
    constructor
    · intro h y hy hd
      rw [← dominate_iff (hgood y hy) (hgood x hx), h y hy] at hd; simp at hd
    · intro h y hy
      rw [← Bool.not_eq_true, dominate_iff (hgood y hy) (hgood x hx)]; exact h y hy
  rw [hfil] at hser
  have hp := hperm.trans hser
  have hmem : ∀ x, x ∈ result ↔ x ∈ v ∧ ∀ y ∈ v, ¬ Dominates (obj y) (obj x) := by
    intro x; rw [hp.mem_iff]; simp
  have hcov : ∀ x ∈ v, ∃ y ∈ result, y = x ∨ Dominates (obj y) (obj x) := by
    intro x hx
    obtain ⟨y, hy, hyx, hmax⟩ := exists_maximal_above v (fun a b => Dominates (obj a) (obj b)) (fun x => Dominates.irrefl _)
      (fun a ha b hb c hc h1 h2 => h1.trans ((hgood a ha).1.trans (hgood b hb).1.symm) ((hgood b hb).1.trans (hgood c hc).1.symm) h2) x hx
    exact ⟨y, (hmem y).2 ⟨hy, hmax⟩, hyx⟩
  refine ⟨hp, hcov, ?_, ?_⟩
  · unfold SortedFor at hsort
    refine hsort.imp_of_mem ?_
    intro x y hx hy h
    simp only at h
    rw [← lexBefore_iff (hgood y ((hmem y).1 hy).1) (hgood x ((hmem x).1 hx).1), h]
    simp
  · obtain ⟨y, hy, -⟩ := hcov x0 hv
    intro h; rw [h] at hy; simp at hy

/-- The objective vectors of the result do not depend on the schedule (position by position, `-0` and `+0` identified). -/
theorem C57_pareto_set_schedule_independent (d : Nat) (obj : P → List α) (v : List P) (hgood : ∀ x ∈ v, GoodObjs d (obj x))
    (r1 r2 : List P) (h1 : ParetoSet obj v r1) (h2 : ParetoSet obj v r2) :
    r1.length = r2.length ∧ ∀ (i : Nat) x y, r1[i]? = some x → r2[i]? = some y → SameObjs (obj x) (obj y) := by
  classical
  obtain ⟨p1, -, -, -⟩ := C57_pareto_set d obj v hgood r1 h1
  obtain ⟨p2, -, -, -⟩ := C57_pareto_set d obj v hgood r2 h2
  have hm : ∀ {r : List P}, r.Perm (v.filter fun x => decide (∀ y ∈ v, ¬ Dominates (obj y) (obj x))) → ∀ x ∈ r, GoodObjs d (obj x) := by
    intro r hp x hx
    rw [hp.mem_iff] at hx
    exact hgood x (List.mem_of_mem_filter hx)
  obtain ⟨-, -, -, -, hs1⟩ := h1
  obtain ⟨-, -, -, -, hs2⟩ := h2
  -- the order restricted to good vectors
  let Q := { x : P // GoodObjs d (obj x) }
  let comp : Q → Q → Bool := fun a b => lexBefore (obj a.1) (obj b.1)
  have hsw : StrictWeak comp := by
    have hneg : ∀ a b c : Q, comp a b = false → comp b c = false → comp a c = false := fun a b c =>
      lexBefore_negTrans a.2 b.2 c.2
    refine ⟨fun a => lexBefore_irrefl _, ?_, hneg⟩
    intro a b c hab hbc
    cases hac : comp a c with
    | true => rfl
    | false =>
      have hcb := lexBefore_asymm b.2 c.2 hbc
      have := hneg a c b hac hcb
      rw [hab] at this; simp at this
  let q1 : List Q := r1.attachWith _ (hm p1)
  let q2 : List Q := r2.attachWith _ (hm p2)
  have e1 : q1.map Subtype.val = r1 := List.attachWith_map_subtype_val _
  have e2 : q2.map Subtype.val = r2 := List.attachWith_map_subtype_val _
  have hq : q1.Perm q2 := by
    have : (q1.map Subtype.val).Perm (q2.map Subtype.val) := by rw [e1, e2]; exact p1.trans p2.symm
    exact (List.map_perm_map_iff Subtype.val_injective).1 this
  have s1 : SortedFor comp q1 := by
    unfold SortedFor at hs1 ⊢
    rw [← e1, List.pairwise_map] at hs1; exact hs1
  have s2 : SortedFor comp q2 := by
    unfold SortedFor at hs2 ⊢
    rw [← e2, List.pairwise_map] at hs2; exact hs2
  obtain ⟨hl, ht, -⟩ := C25_sort_agrees comp hsw q2 q1 q2 hq (List.Perm.refl _) s1 s2
  refine ⟨by rw [← e1, ← e2]; simpa using hl, ?_⟩
  intro i x y hx hy
  rw [← e1, List.getElem?_map, Option.map_eq_some_iff] at hx
  rw [← e2, List.getElem?_map, Option.map_eq_some_iff] at hy
  obtain ⟨a, ha, rfl⟩ := hx
  obtain ⟨b, hb, rfl⟩ := hy
  obtain ⟨t1, t2⟩ := ht i a b ha hb
  exact lexTies_same a.2 b.2 t1 t2

/-- A run on three points, of which one is dominated. -/
example : ParetoSet (fun x : List F64 => x) [[F64.of 1, F64.of 3], [F64.of 1, F64.of 2], [F64.of 2, F64.of 1]] [[F64.of 2, F64.of 1], [F64.of 1, F64.of 3]] := by
  refine ⟨⟨_, rfl, by decide⟩, [(2, fun p => p ++ [[F64.of 2, F64.of 1]]), (0, fun p => p ++ [[F64.of 1, F64.of 3]])], ⟨?_, by decide⟩, ?_, ?_⟩
  · intro i _ hi
    have h0 : nonDominated (fun x : List F64 => x) [F64.of 1, F64.of 3] [[F64.of 1, F64.of 3], [F64.of 1, F64.of 2], [F64.of 2, F64.of 1]] = true := by decide +kernel
    have h1 : nonDominated (fun x : List F64 => x) [F64.of 1, F64.of 2] [[F64.of 1, F64.of 3], [F64.of 1, F64.of 2], [F64.of 2, F64.of 1]] = false := by decide +kernel
    have h2 : nonDominated (fun x : List F64 => x) [F64.of 2, F64.of 1] [[F64.of 1, F64.of 3], [F64.of 1, F64.of 2], [F64.of 2, F64.of 1]] = true := by decide +kernel
    match i, hi with
    | 0, _ => simp [paretoBody, h0]
    | 1, _ => simp [paretoBody, h1]
    | 2, _ => simp [paretoBody, h2]
    | n + 3, h => simp at h
  · exact List.Perm.refl _
  · unfold SortedFor; decide +kernel

/-! ## The two-objective variant (dead code: its call in `pareto_set` is commented out) -/

open Classical in
/-- `sort_2objs` returns exactly the non-dominated elements, in lexicographic order, when no two elements have the same second
objective.  Missing for the full claim: ties in the second objective, for which it is false (next theorem). -/
theorem C57_sort_2objs_partial (obj : P → List α) (sorted : List P) (hne : sorted ≠ []) (hgood : ∀ x ∈ sorted, GoodObjs 2 (obj x))
    (hsort : SortedFor (fun x y => lexBefore (obj x) (obj y)) sorted)
    (hties : sorted.Pairwise fun x y => ∀ a b, (obj x)[1]? = some a → (obj y)[1]? = some b → lt a b = true ∨ lt b a = true) :
    sort2objs obj sorted = some (sorted.filter fun x => decide (∀ y ∈ sorted, ¬ Dominates (obj y) (obj x))) := by
  obtain ⟨x, xs, rfl⟩ : ∃ x xs, sorted = x :: xs := by
    cases sorted with
    | nil => exact absurd rfl hne
    | cons x xs => exact ⟨x, xs, rfl⟩
  obtain ⟨f, hf, hfr⟩ := sort2Loop_spec obj xs [x] [[x]] (by simpa using hgood) (by simpa using hties) (sort2Inv_init obj x (hgood x (by simp)))
  simp only [sort2objs, hf, Option.bind_some, hfr.head]
  rw [← List.singleton_append]
  congr 1
  exact records_eq obj (x :: xs) hgood hsort hties

/-- With equal second objectives `sort_2objs` can return a dominated element, and can lose a non-dominated duplicate. -/
theorem C57_sort_2objs_wrong_with_ties :
    sort2objs id [[F64.of 3, F64.of 2], [F64.of 2, F64.of 1], [F64.of 1, F64.of 2]] = some [[F64.of 3, F64.of 2], [F64.of 1, F64.of 2]] ∧
    dominate [F64.of 3, F64.of 2] [F64.of 1, F64.of 2] = true ∧
    sort2objs id [[F64.of 3, F64.of 2], [F64.of 3, F64.of 2]] = some [[F64.of 3, F64.of 2]] := by
  refine ⟨?_, ?_, ?_⟩ <;> decide +kernel

end Limbo
