import Mathlib.Algebra.Order.BigOperators.Group.List
import Mathlib.Tactic.Linarith
import Mathlib.Tactic.Ring
import Mathlib.Data.List.GetD
import Verif.Model.Sparsified
import Verif.Lemmas.XtLaws
import Verif.Spec.Sparsified

/-! Lemmas about the thinning of `SparsifiedGP`. -/

namespace Limbo

open Sparse

variable {α β γ : Type} [Scalar α]

/-- `dist` agrees with `d` off the diagonal. -/
def DistOK (d : β → β → α) (xs : List β) (dist : Nat → Nat → α) : Prop :=
  ∀ i j x y, i ≠ j → xs[i]? = some x → xs[j]? = some y → dist i j = d x y

omit [Scalar α] in
theorem distances_ok (d : β → β → α) (junk : Nat → α) (xs : List β) : DistOK d xs (distances d junk xs) := by
  intro i j x y hij hx hy
  simp [distances, hij, hx, hy]

omit [Scalar α] in
theorem DistOK.erase {d : β → β → α} {xs : List β} {dist : Nat → Nat → α} (h : DistOK d xs dist) (k : Nat) :
    DistOK d (xs.eraseIdx k) (removeRow k (removeColumn k dist)) := by
  intro i j x y hij hx hy
  rw [List.getElem?_eraseIdx] at hx hy
  unfold removeRow removeColumn
  by_cases hi : i < k <;> by_cases hj : j < k <;> simp only [hi, hj, if_true, if_false] at hx hy ⊢
  · exact h i j x y hij hx hy
  · exact h i (j + 1) x y (by omega) hx hy
  · exact h (i + 1) j x y (by omega) hx hy
  · exact h (i + 1) (j + 1) x y (by omega) hx hy

omit [Scalar α] in
theorem neighbors_eq {d : β → β → α} {xs : List β} {dist : Nat → Nat → α} (h : DistOK d xs dist) {i : Nat} {x : β}
    (hx : xs[i]? = some x) : neighbors dist xs.length i = (xs.eraseIdx i).map (d x) := by
  apply List.ext_getElem?
  intro j
  unfold neighbors
  rw [List.getElem?_eraseIdx, List.getElem?_map (f := d x), List.getElem?_eraseIdx]
  have aux : ∀ j, i ≠ j → ((List.range xs.length).map (dist i))[j]? = (xs[j]?).map (d x) := by
    intro j hij
    rw [List.getElem?_map]
    by_cases hj : j < xs.length
    · rw [List.getElem?_range hj, List.getElem?_eq_getElem hj]
      simp only [Option.map_some]
      rw [h i j x xs[j] hij hx (List.getElem?_eq_getElem hj)]
    · rw [List.getElem?_eq_none (by simpa using hj), List.getElem?_eq_none (by simpa using hj)]
      rfl
  by_cases hj : j < i
  · simp only [hj, if_true]; exact aux j (by omega)
  · simp only [hj, if_false]; exact aux (j + 1) (by omega)

theorem DistFinite.mono {d : β → β → α} {D : Nat} {xs ys : List β} (h : DistFinite d D xs) (hs : ∀ x ∈ ys, x ∈ xs) : DistFinite d D ys :=
  ⟨fun x hx y hy => h.notNaN x (hs x hx) y (hs y hy),
   fun l hl ha => h.sums l hl fun a ha' => by obtain ⟨x, hx, y, hy, e⟩ := ha a ha'; exact ⟨x, hs x hx, y, hs y hy, e⟩⟩

theorem crowding_eq {d : β → β → α} {xs : List β} {dist : Nat → Nat → α} (h : DistOK d xs dist) {D i : Nat} {x : β}
    (hx : xs[i]? = some x) (hn : ∀ x ∈ xs, ∀ y ∈ xs, isNaN (d x y) = false) (hD : D < xs.length) :
    crowding D xs.length dist i = some (crowdOf d D xs i) := by
  have hi : i < xs.length := by
    by_contra hc
    rw [List.getElem?_eq_none (by omega)] at hx; simp at hx
  unfold crowding smallest
  rw [neighbors_eq h hx, if_pos]
  · simp [crowdOf, hx, sumFrom0]
  · refine ⟨?_, ?_⟩
    · rw [List.length_map, List.length_eraseIdx]; simp [hi]; omega
    · rw [List.all_eq_true]
      intro a ha
      obtain ⟨y, hy, rfl⟩ := List.mem_map.1 ha
      rw [hn x (List.mem_of_getElem? hx) y (List.mem_of_mem_eraseIdx hy)]; rfl

theorem crowd_lt_max {d : β → β → α} {D : Nat} {xs : List β} (hf : DistFinite d D xs) {i : Nat} (hi : i < xs.length) (hD : D < xs.length) :
    lt (crowdOf d D xs i) dblMax = true := by
  unfold crowdOf
  rw [List.getElem?_eq_getElem hi]
  apply hf.sums
  · rw [List.length_take, List.length_insertionSort, List.length_map, List.length_eraseIdx]; simp [hi]; omega
  · intro a ha
    have := List.mem_of_mem_take ha
    rw [List.mem_insertionSort] at this
    obtain ⟨y, hy, rfl⟩ := List.mem_map.1 this
    exact ⟨xs[i], List.getElem_mem hi, y, List.mem_of_mem_eraseIdx hy, rfl⟩

theorem foldl_some {σ : Type} {f : Nat → σ → σ} {g : Option σ → Nat → Option σ} (l : List Nat)
    (h : ∀ i ∈ l, ∀ s, g (some s) i = some (f i s)) : ∀ s, l.foldl g (some s) = some (l.foldl (fun s i => f i s) s) := by
  induction l with
  | nil => intro s; rfl
  | cons a l ih =>
    intro s
    simp only [List.foldl_cons]
    rw [h a (by simp), ih (fun i hi => h i (by simp [hi]))]

variable [LawfulCmp α]

/-- the shared minimum after the critical sections `l` -/
theorem update_fold {M : α} (c : Nat → α) (l : List Nat) (h : ∀ i ∈ l, lt (c i) M = true) :
    (l = [] ∧ l.foldl (fun s i => update (c i) i s) (M, none) = (M, none)) ∨
    ∃ k ∈ l, l.foldl (fun s i => update (c i) i s) (M, none) = (c k, some k) ∧ ∀ j ∈ l, le (c k) (c j) = true := by
  induction l using List.reverseRecOn with
  | nil => left; simp
  | append_singleton l a ih =>
    right
    rw [List.foldl_append]
    have ha := h a (by simp)
    have hna : isNaN (c a) = false := (LawfulCmp.not_nan_of_lt ha).1
    rcases ih (fun i hi => h i (by simp [hi])) with ⟨rfl, e⟩ | ⟨k, hk, e, hmin⟩
    · refine ⟨a, by simp, ?_, ?_⟩
      · simp [update, ha]
      · intro j hj; simp at hj; subst hj; exact LawfulCmp.le_refl' _ hna
    · rw [e]
      have hnk : isNaN (c k) = false := (LawfulCmp.not_nan_of_lt (h k (by simp [hk]))).1
      cases hlt : lt (c a) (c k) with
      | true =>
        refine ⟨a, by simp, by simp [update, hlt], ?_⟩
        intro j hj
        simp only [List.mem_append, List.mem_singleton] at hj
        rcases hj with hj | rfl
        · exact LawfulCmp.le_of_lt (LawfulCmp.lt_of_lt_of_le hlt (hmin j hj))
        · exact LawfulCmp.le_refl' _ hna
      | false =>
        refine ⟨k, by simp [hk], by simp [update, hlt], ?_⟩
        intro j hj
        simp only [List.mem_append, List.mem_singleton] at hj
        rcases hj with hj | rfl
        · exact hmin j hj
        · exact LawfulCmp.le_of_not_lt hna hnk hlt

theorem mostDense_spec {d : β → β → α} {xs : List β} {dist : Nat → Nat → α} (h : DistOK d xs dist) {D : Nat} (hf : DistFinite d D xs)
    (hD : D < xs.length) {order : List Nat} (ho : order.Perm (List.range xs.length)) :
    ∃ k < xs.length, mostDense order D xs.length dist = some (some k) ∧
      ∀ j < xs.length, le (crowdOf d D xs k) (crowdOf d D xs j) = true := by
  have hmem : ∀ {i}, i ∈ order ↔ i < xs.length := fun {i} => by rw [ho.mem_iff]; simp
  unfold mostDense
  rw [foldl_some (f := fun i s => update (crowdOf d D xs i) i s)]
  · rcases update_fold (M := (dblMax : α)) (crowdOf d D xs) order (fun i hi => crowd_lt_max hf (hmem.1 hi) hD) with ⟨e, _⟩ | ⟨k, hk, e, hm⟩
    · exfalso
      have := ho.length_eq
      rw [e] at this; simp at this; omega
    · refine ⟨k, hmem.1 hk, by rw [e]; rfl, fun j hj => hm j (hmem.2 hj)⟩
  · intro i hi s
    rw [Option.bind_some, crowding_eq h (List.getElem?_eq_getElem (hmem.1 hi)) hf.notNaN hD]
    rfl

theorem thinLoop_spec {d : β → β → α} {dim : β → Nat} {D lim : Nat} {sched : Nat → List Nat} (hD : D ≤ lim)
    (hs : ∀ n, (sched n).Perm (List.range n)) :
    ∀ (fuel : Nat) (xs : List β) (ys : List γ) (dist : Nat → Nat → α), xs.length ≤ fuel → ys.length = xs.length → (∀ x ∈ xs, dim x = D) →
      DistOK d xs dist → DistFinite d D xs →
      ∃ xs' ys', thinLoop dim lim sched fuel xs ys dist = some (xs', ys') ∧ ys'.length = xs'.length ∧
        GreedyThin (MostCrowded d D) lim (xs.zip ys) (xs'.zip ys')
  | 0, xs, ys, dist, hfu, hl, _, _, _ =>
    ⟨xs, ys, rfl, hl, .stop (by rw [List.length_zip]; omega)⟩
  | fuel + 1, xs, ys, dist, hfu, hl, hdim, hok, hf => by
    unfold thinLoop
    by_cases hgt : xs.length > lim
    · rw [if_pos hgt]
      cases xs with
      | nil => simp at hgt
      | cons x0 xs =>
        simp only
        obtain ⟨k, hk, he, hmin⟩ := mostDense_spec hok hf (by omega) (hs _)
        rw [hdim x0 (by simp), he]
        simp only [Option.bind_some]
        have hk' : k < ys.length := by omega
        obtain ⟨xs', ys', e, hl', hg⟩ := thinLoop_spec (d := d) (dim := dim) hD hs fuel ((x0 :: xs).eraseIdx k) (ys.eraseIdx k) _
          (by rw [List.length_eraseIdx]; simp only [hk, if_true]; omega)
          (by rw [List.length_eraseIdx, List.length_eraseIdx]; simp only [hk, hk', if_true]; omega)
          (fun x hx => hdim x (List.mem_of_mem_eraseIdx hx)) (hok.erase k) (hf.mono fun x hx => List.mem_of_mem_eraseIdx hx)
        refine ⟨xs', ys', e, hl', ?_⟩
        have hmf : ((x0 :: xs).zip ys).map Prod.fst = x0 :: xs := List.map_fst_zip (by omega)
        have hzl : ((x0 :: xs).zip ys).length = (x0 :: xs).length := by rw [List.length_zip]; omega
        refine .remove k (by omega) (by omega) ?_ ?_
        · rw [hmf]; exact hmin
        · have : ((x0 :: xs).zip ys).eraseIdx k = ((x0 :: xs).eraseIdx k).zip (ys.eraseIdx k) := by
            apply List.ext_getElem?
            intro j
            simp only [List.getElem?_eraseIdx, List.zip, List.getElem?_zipWith]
            split <;> rfl
          rw [this]; exact hg
    · rw [if_neg hgt]
      exact ⟨xs, ys, rfl, hl, .stop (by rw [List.length_zip]; omega)⟩

omit [Scalar α] [LawfulCmp α] in
theorem GreedyThin.sublist {pick : List β → Nat → Prop} {lim : Nat} {l r : List (β × γ)} (h : GreedyThin pick lim l r) :
    r.Sublist l ∧ r.length = min l.length lim := by
  induction h with
  | stop h => exact ⟨List.Sublist.refl _, by omega⟩
  | remove i h1 h2 _ _ ih =>
    refine ⟨ih.1.trans (List.eraseIdx_sublist _ _), ?_⟩
    rw [ih.2, List.length_eraseIdx]; simp only [h2, if_true]; omega

theorem GreedyThin.mono {pick pick' : List β → Nat → Prop} {P : List β → Prop} (hP : ∀ xs i, P xs → P (xs.eraseIdx i))
    (hi : ∀ xs i, P xs → i < xs.length → pick xs i → pick' xs i) {lim : Nat} {l r : List (β × γ)} (h : GreedyThin pick lim l r) :
    P (l.map Prod.fst) → GreedyThin pick' lim l r := by
  induction h with
  | stop h => exact fun _ => .stop h
  | remove i h1 h2 h3 _ ih =>
    intro hp
    refine .remove i h1 h2 (hi _ _ hp (by simpa using h2) h3) (ih ?_)
    rw [← List.eraseIdx_map]
    exact hP _ _ hp

/-! ### exact reals -/

theorem euclid_eq (x y : List ℝ) : dist2 x y = euclid x y := by
  unfold dist2 sqDist euclid
  congr 1
  exact Finset.sum_congr rfl fun i _ => by ring

theorem sum_fins (l : List ℝ) (a : ℝ) : (l.map XR.fin).foldl (· + ·) (XR.fin a) = XR.fin (a + l.sum) := by
  induction l generalizing a with
  | nil => simp
  | cons b l ih =>
    simp only [List.map_cons, List.foldl_cons, List.sum_cons]
    rw [show XR.fin a + XR.fin b = XR.fin (a + b) from rfl, ih, add_assoc]

theorem crowd_real (D : Nat) (xs : List (List ℝ)) {i : Nat} (hi : i < xs.length) :
    crowdOf (fun x y => XR.fin (dist2 x y)) D xs i = XR.fin (crowdReal D xs i) := by
  unfold crowdOf crowdReal
  rw [List.getElem?_eq_getElem hi, List.getD_eq_getElem _ _ hi]
  simp only
  rw [show (xs.eraseIdx i).map (fun y => XR.fin (dist2 xs[i] y)) = ((xs.eraseIdx i).map (euclid xs[i])).map XR.fin by
    rw [List.map_map]; exact List.map_congr_left fun y _ => by simp [euclid_eq]]
  rw [← List.map_insertionSort (r := (· ≤ ·)), ← List.map_take]
  · rw [show (lit 0 : XR) = XR.fin 0 by show XR.fin _ = _; simp, sum_fins, zero_add]
  · intro a _ b _
    rw [XR.le_fin]

/-- Distances of real points are never NaN; their sums are small enough when the distances are. -/
theorem distFinite_real {D : Nat} {xs : List (List ℝ)} (hD : 0 < D) (h : ∀ x ∈ xs, ∀ y ∈ xs, D * euclid x y < (2 ^ 53 - 1) * 2 ^ 971) :
    DistFinite (fun x y => XR.fin (dist2 x y)) D xs := by
  refine ⟨fun _ _ _ _ => rfl, ?_⟩
  intro l hl ha
  have hfin : ∃ l' : List ℝ, l = l'.map XR.fin ∧ ∀ a ∈ l', D * a < (2 ^ 53 - 1) * 2 ^ 971 := by
    clear hl
    induction l with
    | nil => exact ⟨[], rfl, by simp⟩
    | cons a l ih =>
      obtain ⟨l', e, h'⟩ := ih fun b hb => ha b (by simp [hb])
      obtain ⟨x, hx, y, hy, e'⟩ := ha a (by simp)
      refine ⟨dist2 x y :: l', by rw [e, e']; rfl, ?_⟩
      intro b hb
      rcases List.mem_cons.1 hb with rfl | hb
      · rw [euclid_eq]; exact h x hx y hy
      · exact h' b hb
  obtain ⟨l', rfl, h'⟩ := hfin
  rw [show (lit 0 : XR) = XR.fin 0 by show XR.fin _ = _; simp, sum_fins, zero_add]
  rw [show (lit ((2 ^ 53 - 1) * 2 ^ 971) : XR) = XR.fin ((2 ^ 53 - 1) * 2 ^ 971) by
    show XR.fin _ = XR.fin _
    push_cast
    rfl]
  generalize ((2 : ℝ) ^ 53 - 1) * 2 ^ 971 = M at *
  have hlen : l'.length = D := by simpa using hl
  have hDp : (0 : ℝ) < D := by exact_mod_cast hD
  have hs : l'.sum < M := by
    have hne : l' ≠ [] := by intro e; rw [e] at hlen; simp at hlen; omega
    have := List.sum_lt_sum_of_ne_nil hne (fun a => a) (fun _ => M / D) (fun a ha => by rw [lt_div_iff₀ hDp]; linarith [h' a ha])
    simp only [List.map_id', List.map_const', List.sum_replicate, hlen, nsmul_eq_mul] at this
    rwa [mul_div_cancel₀ _ hDp.ne'] at this
  show lt (XR.fin _) (XR.fin _) = true
  exact decide_eq_true hs

end Limbo
