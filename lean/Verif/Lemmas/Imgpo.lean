import Verif.Spec.Imgpo
import Verif.Lemmas.Bo2
import Verif.Lemmas.Bo3
import Verif.Lemmas.XtLaws
import Verif.Lemmas.GradOpt2
import Mathlib.Tactic.Linarith
import Mathlib.Tactic.FieldSimp

/-! Helper lemmas about IMGPO: geometry of one split, and its effect on the tree. -/

namespace Limbo

open Finset

theorem crd_set (p : List ℝ) (s : Nat) (v : ℝ) (j : Nat) (hs : s < p.length) : crd (p.set s v) j = if j = s then v else crd p j := by
  unfold crd
  simp only [List.getD_eq_getElem?_getD, List.getElem?_set, hs]
  by_cases h : s = j
  · simp [h]
  · have : ¬ j = s := fun e => h e.symm
    simp [h, this]

theorem map_fin_set (p : List ℝ) (s : Nat) (v : ℝ) : (p.map XR.fin).set s (XR.fin v) = (p.set s v).map XR.fin := by
  rw [List.map_set]

theorem getElem?_map_fin {p : List ℝ} {j : Nat} (h : j < p.length) : (p.map XR.fin)[j]? = some (XR.fin (crd p j)) := by
  simp [crd, h]

theorem map_fin_inj {p q : List ℝ} (h : p.map XR.fin = q.map XR.fin) : p = q := by
  have hi : Function.Injective XR.fin := by
    intro a b h
    have h' : (Xt.fin a : Xt ℝ) = Xt.fin b := h
    injection h'
  exact List.map_injective_iff.2 hi h

namespace Cell

variable {d h : Nat} {C : Cell}

/-- the left third -/
noncomputable def left (C : Cell) (s : Nat) : Cell :=
  ⟨C.a, C.b.set s ((2 * crd C.a s + crd C.b s) / 3), C.c.set s ((5 * crd C.a s + crd C.b s) / 6)⟩
/-- the right third -/
noncomputable def right (C : Cell) (s : Nat) : Cell :=
  ⟨C.a.set s ((crd C.a s + 2 * crd C.b s) / 3), C.b, C.c.set s ((crd C.a s + 5 * crd C.b s) / 6)⟩
/-- the middle third -/
noncomputable def mid (C : Cell) (s : Nat) : Cell :=
  ⟨C.a.set s ((2 * crd C.a s + crd C.b s) / 3), C.b.set s ((crd C.a s + 2 * crd C.b s) / 3), C.c⟩

theorem Good.pos (hg : C.Good d h) {j : Nat} (hj : j < d) : crd C.a j < crd C.b j := by
  obtain ⟨n, h1, -, -⟩ := hg.sides
  have : (0:ℝ) < (1 / 3) ^ n j := by positivity
  linarith [h1 j hj]

/-- the longest side has the smallest exponent -/
theorem sides_split (hg : C.Good d h) {s : Nat} (hs : s < d) (hmax : ∀ j < d, crd C.b j - crd C.a j ≤ crd C.b s - crd C.a s) (a' b' : Nat → ℝ)
    (hw : b' s - a' s = (crd C.b s - crd C.a s) / 3) (ho : ∀ j < d, j ≠ s → b' j - a' j = crd C.b j - crd C.a j) :
    ∃ n : Nat → Nat, (∀ j < d, b' j - a' j = (1 / 3 : ℝ) ^ n j) ∧ ∑ j ∈ range d, n j = h + 1 ∧ ∀ j < d, ∀ k < d, n j ≤ n k + 1 := by
  obtain ⟨n, h1, h2, h3⟩ := hg.sides
  have hmin : ∀ j < d, n s ≤ n j := by
    intro j hj
    have hle := hmax j hj
    rw [h1 j hj, h1 s hs] at hle
    by_contra hc
    push Not at hc
    have : (1 / 3 : ℝ) ^ n s < (1 / 3) ^ n j := pow_lt_pow_right_of_lt_one₀ (by norm_num) (by norm_num) hc
    linarith
  refine ⟨Function.update n s (n s + 1), ?_, ?_, ?_⟩
  · intro j hj
    by_cases hjs : j = s
    · subst hjs; rw [Function.update_self, hw, h1 j hj, pow_succ]; ring
    · rw [Function.update_of_ne hjs, ho j hj hjs, h1 j hj]
  · rw [sum_update_of_mem (mem_range.2 hs), ← h2, ← add_sum_diff_singleton_eq_sum' n hs]
  · intro j hj k hk
    by_cases hjs : j = s <;> by_cases hks : k = s
    · subst hjs; subst hks; omega
    · subst hjs; rw [Function.update_self, Function.update_of_ne hks]; have := hmin k hk; omega
    · subst hks; rw [Function.update_self, Function.update_of_ne hjs]; have := h3 j hj k hk; omega
    · rw [Function.update_of_ne hjs, Function.update_of_ne hks]; exact h3 j hj k hk
where
  add_sum_diff_singleton_eq_sum' {d s : Nat} (n : Nat → Nat) (hs : s < d) :
      n s + 1 + ∑ x ∈ range d \ {s}, n x = ∑ j ∈ range d, n j + 1 := by
    rw [← sum_sdiff (singleton_subset_iff.2 (mem_range.2 hs)), sum_singleton]; omega

variable {s : Nat}

theorem good_left (hg : C.Good d h) (hs : s < d) (hmax : ∀ j < d, crd C.b j - crd C.a j ≤ crd C.b s - crd C.a s) : (C.left s).Good d (h + 1) := by
  have hp := hg.pos hs
  have hb : s < C.b.length := by rw [hg.lb]; exact hs
  have hc : s < C.c.length := by rw [hg.lc]; exact hs
  refine ⟨hg.la, by simp [left, hg.lb], by simp [left, hg.lc], ?_, ?_, ?_⟩
  · intro j hj
    simp only [left, crd_set _ _ _ _ hb]
    have h1 := hg.inside j hj
    refine ⟨h1.1, ?_⟩
    split
    · next e => subst e; linarith
    · exact h1.2
  · refine sides_split hg hs hmax _ _ ?_ ?_
    · simp only [left, crd_set _ _ _ _ hb, if_true]; ring
    · intro j hj hjs; simp only [left, crd_set _ _ _ _ hb, if_neg hjs]
  · intro j hj
    simp only [left, crd_set _ _ _ _ hb, crd_set _ _ _ _ hc]
    split
    · next e => subst e; ring
    · exact hg.centre j hj

theorem good_right (hg : C.Good d h) (hs : s < d) (hmax : ∀ j < d, crd C.b j - crd C.a j ≤ crd C.b s - crd C.a s) : (C.right s).Good d (h + 1) := by
  have hp := hg.pos hs
  have ha : s < C.a.length := by rw [hg.la]; exact hs
  have hc : s < C.c.length := by rw [hg.lc]; exact hs
  refine ⟨by simp [right, hg.la], hg.lb, by simp [right, hg.lc], ?_, ?_, ?_⟩
  · intro j hj
    simp only [right, crd_set _ _ _ _ ha]
    have h1 := hg.inside j hj
    refine ⟨?_, h1.2⟩
    split
    · next e => subst e; linarith
    · exact h1.1
  · refine sides_split hg hs hmax _ _ ?_ ?_
    · simp only [right, crd_set _ _ _ _ ha, if_true]; ring
    · intro j hj hjs; simp only [right, crd_set _ _ _ _ ha, if_neg hjs]
  · intro j hj
    simp only [right, crd_set _ _ _ _ ha, crd_set _ _ _ _ hc]
    split
    · next e => subst e; ring
    · exact hg.centre j hj

theorem good_mid (hg : C.Good d h) (hs : s < d) (hmax : ∀ j < d, crd C.b j - crd C.a j ≤ crd C.b s - crd C.a s) : (C.mid s).Good d (h + 1) := by
  have hp := hg.pos hs
  have ha : s < C.a.length := by rw [hg.la]; exact hs
  have hb : s < C.b.length := by rw [hg.lb]; exact hs
  refine ⟨by simp [mid, hg.la], by simp [mid, hg.lb], hg.lc, ?_, ?_, ?_⟩
  · intro j hj
    simp only [mid, crd_set _ _ _ _ ha, crd_set _ _ _ _ hb]
    have h1 := hg.inside j hj
    split
    · next e => subst e; constructor <;> linarith
    · exact h1
  · refine sides_split hg hs hmax _ _ ?_ ?_
    · simp only [mid, crd_set _ _ _ _ ha, crd_set _ _ _ _ hb, if_true]; ring
    · intro j hj hjs; simp only [mid, crd_set _ _ _ _ ha, crd_set _ _ _ _ hb, if_neg hjs]
  · intro j hj
    simp only [mid, crd_set _ _ _ _ ha, crd_set _ _ _ _ hb]
    split
    · next e => subst e; rw [hg.centre j hj]; ring
    · exact hg.centre j hj

/-- a smaller cell -/
def Sub (d : Nat) (C' C : Cell) : Prop := ∀ j < d, crd C.a j ≤ crd C'.a j ∧ crd C'.b j ≤ crd C.b j

theorem Apart.symm {C C' : Cell} (h : C.Apart d C') : C'.Apart d C := by
  obtain ⟨j, hj, h⟩ := h
  exact ⟨j, hj, h.symm⟩

theorem Apart.sub {C C' D : Cell} (h : C.Apart d D) (hs : C'.Sub d C) : C'.Apart d D := by
  obtain ⟨j, hj, h⟩ := h
  refine ⟨j, hj, ?_⟩
  have := hs j hj
  rcases h with h | h
  · left; linarith
  · right; linarith

theorem left_sub (hg : C.Good d h) (hs : s < d) : (C.left s).Sub d C := by
  have hp := hg.pos hs
  have hb : s < C.b.length := by rw [hg.lb]; exact hs
  intro j hj
  simp only [left, crd_set _ _ _ _ hb]
  refine ⟨le_refl _, ?_⟩
  split
  · next e => subst e; linarith
  · exact le_refl _

theorem right_sub (hg : C.Good d h) (hs : s < d) : (C.right s).Sub d C := by
  have hp := hg.pos hs
  have ha : s < C.a.length := by rw [hg.la]; exact hs
  intro j hj
  simp only [right, crd_set _ _ _ _ ha]
  refine ⟨?_, le_refl _⟩
  split
  · next e => subst e; linarith
  · exact le_refl _

theorem mid_sub (hg : C.Good d h) (hs : s < d) : (C.mid s).Sub d C := by
  have hp := hg.pos hs
  have ha : s < C.a.length := by rw [hg.la]; exact hs
  have hb : s < C.b.length := by rw [hg.lb]; exact hs
  intro j hj
  simp only [mid, crd_set _ _ _ _ ha, crd_set _ _ _ _ hb]
  split
  · next e => subst e; constructor <;> linarith
  · exact ⟨le_refl _, le_refl _⟩

theorem left_right (hg : C.Good d h) (hs : s < d) : (C.left s).Apart d (C.right s) := by
  have hp := hg.pos hs
  have ha : s < C.a.length := by rw [hg.la]; exact hs
  have hb : s < C.b.length := by rw [hg.lb]; exact hs
  refine ⟨s, hs, Or.inl ?_⟩
  simp only [left, right, crd_set _ _ _ _ ha, crd_set _ _ _ _ hb, if_true]
  linarith

theorem left_mid (hg : C.Good d h) (hs : s < d) : (C.left s).Apart d (C.mid s) := by
  have ha : s < C.a.length := by rw [hg.la]; exact hs
  have hb : s < C.b.length := by rw [hg.lb]; exact hs
  refine ⟨s, hs, Or.inl ?_⟩
  simp only [left, mid, crd_set _ _ _ _ ha, crd_set _ _ _ _ hb, if_true]
  exact le_refl _

theorem mid_right (hg : C.Good d h) (hs : s < d) : (C.mid s).Apart d (C.right s) := by
  have ha : s < C.a.length := by rw [hg.la]; exact hs
  have hb : s < C.b.length := by rw [hg.lb]; exact hs
  refine ⟨s, hs, Or.inl ?_⟩
  simp only [right, mid, crd_set _ _ _ _ ha, crd_set _ _ _ _ hb, if_true]
  exact le_refl _

theorem cover (hg : C.Good d h) (hs : s < d) {p : List ℝ} (hm : C.Mem d p) : (C.left s).Mem d p ∨ (C.mid s).Mem d p ∨ (C.right s).Mem d p := by
  have ha : s < C.a.length := by rw [hg.la]; exact hs
  have hb : s < C.b.length := by rw [hg.lb]; exact hs
  by_cases h1 : crd p s ≤ (2 * crd C.a s + crd C.b s) / 3
  · left
    intro j hj
    simp only [left, crd_set _ _ _ _ hb]
    refine ⟨(hm j hj).1, ?_⟩
    split
    · next e => subst e; exact h1
    · exact (hm j hj).2
  · push Not at h1
    right
    by_cases h2 : crd p s ≤ (crd C.a s + 2 * crd C.b s) / 3
    · left
      intro j hj
      simp only [mid, crd_set _ _ _ _ ha, crd_set _ _ _ _ hb]
      split
      · next e => subst e; exact ⟨h1.le, h2⟩
      · exact hm j hj
    · push Not at h2
      right
      intro j hj
      simp only [right, crd_set _ _ _ _ ha]
      refine ⟨?_, (hm j hj).2⟩
      split
      · next e => subst e; exact h2.le
      · exact (hm j hj).1

/-- the side found by the program is a longest one -/
theorem side_fin (hg : C.Good d h) (hd : 0 < d) : ∃ s < d, imSide (C.a.map XR.fin) (C.b.map XR.fin) = some (s, XR.fin (crd C.a s), XR.fin (crd C.b s)) ∧
    ∀ j < d, crd C.b j - crd C.a j ≤ crd C.b s - crd C.a s := by
  set l := List.zipWith (fun a b => a - b) (C.b.map XR.fin) (C.a.map XR.fin) with hl
  have hlen : l.length = d := by rw [hl]; simp [hg.la, hg.lb]
  have hget : ∀ j < d, l[j]? = some (XR.fin (crd C.b j - crd C.a j)) := by
    intro j hj
    rw [hl, List.getElem?_zipWith, getElem?_map_fin (by rw [hg.lb]; exact hj), getElem?_map_fin (by rw [hg.la]; exact hj)]
    simp
  obtain ⟨m, h1, h2, -⟩ := maxElement_spec l (by intro e; rw [e] at hlen; simp at hlen; omega) (by
    intro x hx
    obtain ⟨j, hj, rfl⟩ := List.getElem_of_mem hx
    have := hget j (by omega)
    rw [List.getElem?_eq_getElem hj] at this
    rw [Option.some.inj this]; rfl)
  have hs : maxElement l < d := by
    rw [← hlen]
    exact (List.getElem?_eq_some_iff.1 h1).1
  have hm : m = XR.fin (crd C.b (maxElement l) - crd C.a (maxElement l)) := by
    rw [hget _ hs] at h1; exact (Option.some.inj h1).symm
  refine ⟨maxElement l, hs, ?_, ?_⟩
  · unfold imSide
    simp only [← hl]
    rw [getElem?_map_fin (by rw [hg.la]; exact hs), getElem?_map_fin (by rw [hg.lb]; exact hs)]
  · intro j hj
    have := h2 j _ (hget j hj)
    rw [hm, XR.le_fin] at this
    exact this

end Cell

theorem imL_fin (a b : ℝ) : imL (XR.fin a) (XR.fin b) = XR.fin ((2 * a + b) / 3) := by
  unfold imL
  rw [XR.lit_eq, XR.lit_eq, XR.mul_fin, XR.add_fin, XR.div_fin (by norm_num)]; norm_num
theorem imR_fin (a b : ℝ) : imR (XR.fin a) (XR.fin b) = XR.fin ((a + 2 * b) / 3) := by
  unfold imR
  rw [XR.lit_eq, XR.lit_eq, XR.mul_fin, XR.add_fin, XR.div_fin (by norm_num)]; norm_num
theorem imG_fin (a b : ℝ) : imG (XR.fin a) (XR.fin b) = XR.fin ((5 * a + b) / 6) := by
  unfold imG
  rw [XR.lit_eq, XR.lit_eq, XR.mul_fin, XR.add_fin, XR.div_fin (by norm_num)]; norm_num
theorem imD_fin (a b : ℝ) : imD (XR.fin a) (XR.fin b) = XR.fin ((a + 5 * b) / 6) := by
  unfold imD
  rw [XR.lit_eq, XR.lit_eq, XR.mul_fin, XR.add_fin, XR.div_fin (by norm_num)]; norm_num

/-! ## The tree -/

/-- one more cell in a level -/
def pushCell {α : Type} (x xmin xmax v : List α) (s : Bool) (L : Lev α) : Lev α :=
  ⟨L.xmax ++ [xmax], L.xmin ++ [xmin], L.x ++ [x], L.f ++ [v], L.leaf ++ [true], L.samp ++ [s]⟩

theorem levOk_push {d h : Nat} {L : Lev XR} (hL : LevOk d h L) {C : Cell} (hC : C.Good d h) (v : List XR) (s : Bool) :
    LevOk d h (pushCell (C.c.map XR.fin) (C.a.map XR.fin) (C.b.map XR.fin) v s L) := by
  refine ⟨by simp [pushCell, hL.lxmin], by simp [pushCell, hL.lxmax], by simp [pushCell, hL.lf], by simp [pushCell, hL.lleaf],
    by simp [pushCell, hL.lsamp], ?_⟩
  intro i hi
  simp only [pushCell, List.length_append, List.length_singleton] at hi ⊢
  by_cases hlt : i < L.x.length
  · obtain ⟨C', h1, h2, h3, h4⟩ := hL.cells i hlt
    refine ⟨C', ?_, ?_, ?_, h4⟩
    · rw [List.getElem?_append_left (by rw [hL.lxmin]; exact hlt)]; exact h1
    · rw [List.getElem?_append_left (by rw [hL.lxmax]; exact hlt)]; exact h2
    · rw [List.getElem?_append_left hlt]; exact h3
  · have e : i = L.x.length := by omega
    subst e
    refine ⟨C, ?_, ?_, ?_, hC⟩
    · rw [← hL.lxmin]; simp
    · rw [← hL.lxmax]; simp
    · simp

theorem levOk_leaf {d h : Nat} {L : Lev XR} (hL : LevOk d h L) (i : Nat) (b : Bool) : LevOk d h { L with leaf := L.leaf.set i b } :=
  ⟨hL.lxmin, hL.lxmax, hL.lf, by simp [hL.lleaf], hL.lsamp, hL.cells⟩

theorem levOk_samp {d h : Nat} {L : Lev XR} (hL : LevOk d h L) (i : Nat) (b : Bool) : LevOk d h { L with samp := L.samp.set i b } :=
  ⟨hL.lxmin, hL.lxmax, hL.lf, hL.lleaf, by simp [hL.lsamp], hL.cells⟩

theorem levOk_modify {d : Nat} {T : List (Lev XR)} (hT : ∀ h L, T[h]? = some L → LevOk d h L) {k : Nat} {g : Lev XR → Lev XR}
    (hg : ∀ L, T[k]? = some L → LevOk d k L → LevOk d k (g L)) : ∀ h L, (T.modify k g)[h]? = some L → LevOk d h L := by
  intro h L hL
  rw [List.getElem?_modify] at hL
  by_cases e : k = h
  · subst e
    simp only [if_true] at hL
    cases hk : T[k]? with
    | none => rw [hk] at hL; simp at hL
    | some L0 =>
      rw [hk] at hL
      simp at hL
      rw [← hL]
      exact hg L0 hk (hT k L0 hk)
  · simp only [e, if_false] at hL
    cases hk : T[h]? with
    | none => rw [hk] at hL; simp at hL
    | some L0 =>
      rw [hk] at hL
      simp at hL
      rw [← hL]
      exact hT h L0 hk

/-- the tree after an expansion -/
noncomputable def expandTree (T : List (Lev XR)) (h i s : Nat) (C : Cell) (v1 v2 v3 : List XR) (b1 b2 : Bool) : List (Lev XR) :=
  (T.modify h fun L => { L with leaf := L.leaf.set i false }).modify (h + 1) fun L =>
    pushCell ((C.mid s).c.map XR.fin) ((C.mid s).a.map XR.fin) ((C.mid s).b.map XR.fin) v3 true
      (pushCell ((C.right s).c.map XR.fin) ((C.right s).a.map XR.fin) ((C.right s).b.map XR.fin) v2 b2
        (pushCell ((C.left s).c.map XR.fin) ((C.left s).a.map XR.fin) ((C.left s).b.map XR.fin) v1 b1 L))

end Limbo
