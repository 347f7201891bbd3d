import Verif.Lemmas.Imgpo

/-! Helper lemmas about IMGPO: an expansion keeps the tiling. -/

namespace Limbo

variable {T : List (Lev XR)} {d h i s : Nat} {C : Cell} {v1 v2 v3 : List XR} {b1 b2 : Bool}

theorem app3 {β : Type} (l : List β) (a b c : β) (j : Nat) :
    (l ++ [a] ++ [b] ++ [c])[j]? = if j < l.length then l[j]? else if j = l.length then some a else if j = l.length + 1 then some b
      else if j = l.length + 2 then some c else none := by
  simp only [List.append_assoc, List.singleton_append]
  by_cases h : j < l.length
  · rw [if_pos h, List.getElem?_append_left h]
  · rw [if_neg h, List.getElem?_append_right (by omega)]
    obtain ⟨m, hm⟩ : ∃ m, j = l.length + m := ⟨j - l.length, by omega⟩
    subst hm
    rcases m with _ | _ | _ | m
    · simp
    · simp
    · simp
    · simp

theorem cellAt_unique {C C' : Cell} (h1 : CellAt T h i C) (h2 : CellAt T h i C') : C = C' := by
  obtain ⟨L, a1, a2, a3, a4⟩ := h1
  obtain ⟨L', c1, c2, c3, c4⟩ := h2
  rw [a1] at c1
  cases c1
  rw [a2] at c2; rw [a3] at c3; rw [a4] at c4
  have e1 := map_fin_inj (Option.some.inj c2)
  have e2 := map_fin_inj (Option.some.inj c3)
  have e3 := map_fin_inj (Option.some.inj c4)
  cases C; cases C'
  simp only at e1 e2 e3
  rw [e1, e2, e3]

theorem expand_get_h {L : Lev XR} (hL : T[h]? = some L) :
    (expandTree T h i s C v1 v2 v3 b1 b2)[h]? = some { L with leaf := L.leaf.set i false } := by
  simp [expandTree, List.getElem?_modify, hL]

theorem expand_get_h1 {L : Lev XR} (hL : T[h + 1]? = some L) :
    (expandTree T h i s C v1 v2 v3 b1 b2)[h + 1]? = some
      (pushCell ((C.mid s).c.map XR.fin) ((C.mid s).a.map XR.fin) ((C.mid s).b.map XR.fin) v3 true
      (pushCell ((C.right s).c.map XR.fin) ((C.right s).a.map XR.fin) ((C.right s).b.map XR.fin) v2 b2
        (pushCell ((C.left s).c.map XR.fin) ((C.left s).a.map XR.fin) ((C.left s).b.map XR.fin) v1 b1 L))) := by
  simp [expandTree, List.getElem?_modify, hL]

theorem expand_get_other {k : Nat} (h1 : k ≠ h) (h2 : k ≠ h + 1) : (expandTree T h i s C v1 v2 v3 b1 b2)[k]? = T[k]? := by
  simp [expandTree, List.getElem?_modify, h1.symm, h2.symm]

theorem expand_length : (expandTree T h i s C v1 v2 v3 b1 b2).length = T.length := by simp [expandTree]

theorem levOk_expand (hT : ∀ h L, T[h]? = some L → LevOk d h L) (hg : C.Good d h) (hs : s < d)
    (hmax : ∀ j < d, crd C.b j - crd C.a j ≤ crd C.b s - crd C.a s) :
    ∀ k L, (expandTree T h i s C v1 v2 v3 b1 b2)[k]? = some L → LevOk d k L := by
  unfold expandTree
  refine levOk_modify (levOk_modify hT fun L _ hL => levOk_leaf hL i false) fun L _ hL => ?_
  exact levOk_push (levOk_push (levOk_push hL (Cell.good_left hg hs hmax) _ _) (Cell.good_right hg hs hmax) _ _) (Cell.good_mid hg hs hmax) _ _

/-- a cell other than the expanded one is unchanged -/
theorem expand_old (hT : ∀ h L, T[h]? = some L → LevOk d h L) {k j : Nat} (hne : (k, j) ≠ (h, i)) (hl : LeafAt T k j) :
    LeafAt (expandTree T h i s C v1 v2 v3 b1 b2) k j := by
  obtain ⟨L, hL, hj⟩ := hl
  by_cases hk : k = h
  · subst hk
    refine ⟨_, expand_get_h hL, ?_⟩
    simp only
    rw [List.getElem?_set_ne]
    · exact hj
    · intro e; subst e; exact hne rfl
  · by_cases hk1 : k = h + 1
    · subst hk1
      refine ⟨_, expand_get_h1 hL, ?_⟩
      simp only [pushCell]
      rw [app3, if_pos]
      · exact hj
      · exact (List.getElem?_eq_some_iff.1 hj).1
    · exact ⟨L, by rw [expand_get_other hk hk1]; exact hL, hj⟩

theorem expand_cell_old {k j : Nat} {D : Cell} (hl : CellAt T k j D) : CellAt (expandTree T h i s C v1 v2 v3 b1 b2) k j D := by
  obtain ⟨L, hL, c1, c2, c3⟩ := hl
  by_cases hk : k = h
  · subst hk
    exact ⟨_, expand_get_h hL, c1, c2, c3⟩
  · by_cases hk1 : k = h + 1
    · subst hk1
      refine ⟨_, expand_get_h1 hL, ?_, ?_, ?_⟩
      · simp only [pushCell]; rw [app3, if_pos]; exacts [c1, (List.getElem?_eq_some_iff.1 c1).1]
      · simp only [pushCell]; rw [app3, if_pos]; exacts [c2, (List.getElem?_eq_some_iff.1 c2).1]
      · simp only [pushCell]; rw [app3, if_pos]; exacts [c3, (List.getElem?_eq_some_iff.1 c3).1]
    · exact ⟨L, by rw [expand_get_other hk hk1]; exact hL, c1, c2, c3⟩

theorem expand_new (hT : ∀ h L, T[h]? = some L → LevOk d h L) {L : Lev XR} (hL : T[h + 1]? = some L) :
    (LeafAt (expandTree T h i s C v1 v2 v3 b1 b2) (h + 1) L.x.length ∧ CellAt (expandTree T h i s C v1 v2 v3 b1 b2) (h + 1) L.x.length (C.left s)) ∧
    (LeafAt (expandTree T h i s C v1 v2 v3 b1 b2) (h + 1) (L.x.length + 1) ∧
      CellAt (expandTree T h i s C v1 v2 v3 b1 b2) (h + 1) (L.x.length + 1) (C.right s)) ∧
    (LeafAt (expandTree T h i s C v1 v2 v3 b1 b2) (h + 1) (L.x.length + 2) ∧
      CellAt (expandTree T h i s C v1 v2 v3 b1 b2) (h + 1) (L.x.length + 2) (C.mid s)) := by
  have ok := hT _ _ hL
  refine ⟨⟨⟨_, expand_get_h1 hL, ?_⟩, ⟨_, expand_get_h1 hL, ?_, ?_, ?_⟩⟩, ⟨⟨_, expand_get_h1 hL, ?_⟩, ⟨_, expand_get_h1 hL, ?_, ?_, ?_⟩⟩,
    ⟨⟨_, expand_get_h1 hL, ?_⟩, ⟨_, expand_get_h1 hL, ?_, ?_, ?_⟩⟩⟩ <;>
  · simp only [pushCell]; rw [app3]; simp [ok.lleaf, ok.lxmin, ok.lxmax]

/-- the leaves of the new tree -/
theorem expand_cases (hT : ∀ h L, T[h]? = some L → LevOk d h L) {L : Lev XR} (hL : T[h + 1]? = some L) {k j : Nat} {D : Cell}
    (hi : ∃ L0, T[h]? = some L0 ∧ i < L0.leaf.length)
    (hl : LeafAt (expandTree T h i s C v1 v2 v3 b1 b2) k j) (hc : CellAt (expandTree T h i s C v1 v2 v3 b1 b2) k j D) :
    (LeafAt T k j ∧ CellAt T k j D ∧ (k, j) ≠ (h, i)) ∨
    (k = h + 1 ∧ ((j = L.x.length ∧ D = C.left s) ∨ (j = L.x.length + 1 ∧ D = C.right s) ∨ (j = L.x.length + 2 ∧ D = C.mid s))) := by
  have ok := hT _ _ hL
  obtain ⟨n1, n2, n3⟩ := expand_new (s := s) (C := C) (i := i) (v1 := v1) (v2 := v2) (v3 := v3) (b1 := b1) (b2 := b2) hT hL
  by_cases hk1 : k = h + 1
  · subst hk1
    by_cases hj : j < L.x.length
    · left
      obtain ⟨L', hL', h1⟩ := hl
      obtain ⟨L'', hL'', c1, c2, c3⟩ := hc
      rw [expand_get_h1 hL] at hL' hL''
      cases hL'; cases hL''
      simp only [pushCell] at h1 c1 c2 c3
      rw [app3, if_pos (by rw [ok.lleaf]; exact hj)] at h1
      rw [app3, if_pos (by rw [ok.lxmin]; exact hj)] at c1
      rw [app3, if_pos (by rw [ok.lxmax]; exact hj)] at c2
      rw [app3, if_pos hj] at c3
      exact ⟨⟨L, hL, h1⟩, ⟨L, hL, c1, c2, c3⟩, by simp⟩
    · right
      refine ⟨rfl, ?_⟩
      have h3 : j < L.x.length + 3 := by
        obtain ⟨L'', hL'', c1, c2, c3⟩ := hc
        rw [expand_get_h1 hL] at hL''
        cases hL''
        have := (List.getElem?_eq_some_iff.1 c3).1
        simp only [pushCell, List.length_append, List.length_singleton] at this
        exact this
      have : j = L.x.length ∨ j = L.x.length + 1 ∨ j = L.x.length + 2 := by omega
      rcases this with rfl | rfl | rfl
      · exact Or.inl ⟨rfl, cellAt_unique hc n1.2⟩
      · exact Or.inr (Or.inl ⟨rfl, cellAt_unique hc n2.2⟩)
      · exact Or.inr (Or.inr ⟨rfl, cellAt_unique hc n3.2⟩)
  · left
    by_cases hk : k = h
    · subst hk
      obtain ⟨L0, hL0, hi⟩ := hi
      obtain ⟨L', hL', h1⟩ := hl
      obtain ⟨L'', hL'', c1, c2, c3⟩ := hc
      rw [expand_get_h hL0] at hL' hL''
      cases hL'; cases hL''
      simp only at h1
      have hij : i ≠ j := by
        intro e; subst e
        rw [List.getElem?_set_self hi] at h1
        cases h1
      rw [List.getElem?_set_ne hij] at h1
      exact ⟨⟨L0, hL0, h1⟩, ⟨L0, hL0, c1, c2, c3⟩, by intro e; cases e; exact hij rfl⟩
    · obtain ⟨L', hL', h1⟩ := hl
      obtain ⟨L'', hL'', c⟩ := hc
      rw [expand_get_other hk hk1] at hL' hL''
      exact ⟨⟨L', hL', h1⟩, ⟨L'', hL'', c⟩, by intro e; cases e; exact hk rfl⟩

theorem tiles_expand (hT : ∀ h L, T[h]? = some L → LevOk d h L) (ht : Tiles d T) (hl : LeafAt T h i) (hc : CellAt T h i C) (hg : C.Good d h)
    (hs : s < d) (hlen : h + 1 < T.length) : Tiles d (expandTree T h i s C v1 v2 v3 b1 b2) := by
  obtain ⟨L, hL⟩ : ∃ L, T[h + 1]? = some L := ⟨T[h + 1], List.getElem?_eq_getElem hlen⟩
  have hi : ∃ L0, T[h]? = some L0 ∧ i < L0.leaf.length := by
    obtain ⟨L0, h0, h1⟩ := hl
    exact ⟨L0, h0, (List.getElem?_eq_some_iff.1 h1).1⟩
  obtain ⟨n1, n2, n3⟩ := expand_new (s := s) (C := C) (i := i) (v1 := v1) (v2 := v2) (v3 := v3) (b1 := b1) (b2 := b2) hT hL
  constructor
  · intro p hp
    obtain ⟨k, j, D, l1, l2, l3⟩ := ht.1 p hp
    by_cases hne : (k, j) = (h, i)
    · cases hne
      have := cellAt_unique l2 hc
      subst this
      rcases Cell.cover hg hs l3 with hm | hm | hm
      · exact ⟨_, _, _, n1.1, n1.2, hm⟩
      · exact ⟨_, _, _, n3.1, n3.2, hm⟩
      · exact ⟨_, _, _, n2.1, n2.2, hm⟩
    · exact ⟨k, j, D, expand_old hT hne l1, expand_cell_old l2, l3⟩
  · have key : ∀ k j D k' j' D', LeafAt T k j ∧ CellAt T k j D ∧ (k, j) ≠ (h, i) →
        (k' = h + 1 ∧ ((j' = L.x.length ∧ D' = C.left s) ∨ (j' = L.x.length + 1 ∧ D' = C.right s) ∨ (j' = L.x.length + 2 ∧ D' = C.mid s))) →
        D'.Apart d D := by
      rintro k j D k' j' D' ⟨a1, a2, a3⟩ ⟨-, hb⟩
      have hap : C.Apart d D := ht.2 h i C k j D hl hc a1 a2 (fun e => a3 e.symm)
      rcases hb with ⟨-, rfl⟩ | ⟨-, rfl⟩ | ⟨-, rfl⟩
      · exact hap.sub (Cell.left_sub hg hs)
      · exact hap.sub (Cell.right_sub hg hs)
      · exact hap.sub (Cell.mid_sub hg hs)
    intro k j D k' j' D' l1 c1 l2 c2 hne
    rcases expand_cases hT hL hi l1 c1 with o1 | o1 <;> rcases expand_cases hT hL hi l2 c2 with o2 | o2
    · exact ht.2 _ _ _ _ _ _ o1.1 o1.2.1 o2.1 o2.2.1 hne
    · exact (key _ _ _ _ _ _ o1 o2).symm
    · exact key _ _ _ _ _ _ o2 o1
    · obtain ⟨rfl, o1⟩ := o1
      obtain ⟨rfl, o2⟩ := o2
      rcases o1 with ⟨rfl, rfl⟩ | ⟨rfl, rfl⟩ | ⟨rfl, rfl⟩ <;> rcases o2 with ⟨rfl, rfl⟩ | ⟨rfl, rfl⟩ | ⟨rfl, rfl⟩
      · exact absurd rfl hne
      · exact Cell.left_right hg hs
      · exact Cell.left_mid hg hs
      · exact (Cell.left_right hg hs).symm
      · exact absurd rfl hne
      · exact (Cell.mid_right hg hs).symm
      · exact (Cell.left_mid hg hs).symm
      · exact Cell.mid_right hg hs
      · exact absurd rfl hne

/-- leaves and cells do not depend on `samp` -/
theorem leafAt_samp {k g j : Nat} {b : Bool} : LeafAt (T.modify k fun L => { L with samp := L.samp.set g b }) h j ↔ LeafAt T h j := by
  unfold LeafAt
  rw [List.getElem?_modify]
  by_cases e : k = h
  · subst e
    cases hk : T[k]? <;> simp
  · simp [e]

theorem cellAt_samp {k g j : Nat} {b : Bool} {D : Cell} :
    CellAt (T.modify k fun L => { L with samp := L.samp.set g b }) h j D ↔ CellAt T h j D := by
  unfold CellAt
  rw [List.getElem?_modify]
  by_cases e : k = h
  · subst e
    cases hk : T[k]? <;> simp
  · simp [e]

theorem tiles_samp {k g : Nat} {b : Bool} (ht : Tiles d T) : Tiles d (T.modify k fun L => { L with samp := L.samp.set g b }) := by
  unfold Tiles at *
  simp only [leafAt_samp, cellAt_samp]
  exact ht

end Limbo
