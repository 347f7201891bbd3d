import Verif.Lemmas.Imgpo8

/-! Leaves, values and depths in IMGPO's tree: what splitting a cell changes, and what a whole pass does. -/

namespace Limbo

variable {M : Type}

/-- values and leaf flags of all levels -/
abbrev KT := List (List (List XR) × List Bool)

/-- number of leaves -/
def leafK (K : KT) : Nat := (K.map fun p => p.2.count true).sum

/-- total weight of the leaves: a leaf of level `h` weighs `3 ^ (levels - 1 - h)` -/
def kraftK : KT → Nat
  | [] => 0
  | p :: K => p.2.count true * 3 ^ K.length + kraftK K

def leafAtK (K : KT) (h i : Nat) : Prop := ∃ p, K[h]? = some p ∧ p.2[i]? = some true

theorem leafCount_eq (T : List (Lev XR)) : leafCount T = leafK (T.map fkey) := by
  unfold leafCount leafK
  rw [List.map_map]; rfl

theorem leafAt_iff (T : List (Lev XR)) (h i : Nat) : LeafAt T h i ↔ leafAtK (T.map fkey) h i := by
  unfold LeafAt leafAtK
  rw [List.getElem?_map]
  constructor
  · rintro ⟨L, h1, h2⟩; exact ⟨fkey L, by rw [h1]; rfl, h2⟩
  · rintro ⟨p, h1, h2⟩
    rw [Option.map_eq_some_iff] at h1
    obtain ⟨L, h1, rfl⟩ := h1
    exact ⟨L, h1, h2⟩

theorem leafK_modify : ∀ {K : KT} {h : Nat} {p : List (List XR) × List Bool} (g : List (List XR) × List Bool → List (List XR) × List Bool), K[h]? = some p →
    leafK (K.modify h g) + p.2.count true = leafK K + (g p).2.count true := by
  intro K
  induction K with
  | nil => intro h p g hp; simp at hp
  | cons q K ih =>
    intro h p g hp
    cases h with
    | zero =>
      simp only [List.getElem?_cons_zero, Option.some.injEq] at hp; subst hp
      simp [leafK, List.modify_zero_cons]; omega
    | succ h =>
      rw [List.getElem?_cons_succ] at hp
      have := ih g hp
      simp only [leafK, List.modify_succ_cons, List.map_cons, List.sum_cons] at this ⊢
      omega

theorem kraftK_modify : ∀ {K : KT} {h : Nat} {p : List (List XR) × List Bool} (g : List (List XR) × List Bool → List (List XR) × List Bool), K[h]? = some p →
    kraftK (K.modify h g) + p.2.count true * 3 ^ (K.length - 1 - h) = kraftK K + (g p).2.count true * 3 ^ (K.length - 1 - h) := by
  intro K
  induction K with
  | nil => intro h p g hp; simp at hp
  | cons q K ih =>
    intro h p g hp
    cases h with
    | zero =>
      simp only [List.getElem?_cons_zero, Option.some.injEq] at hp; subst hp
      simp only [kraftK, List.modify_zero_cons, List.length_cons]
      have : K.length + 1 - 1 - 0 = K.length := by omega
      rw [this]; ring
    | succ h =>
      rw [List.getElem?_cons_succ] at hp
      have := ih g hp
      have hl := (List.getElem?_eq_some_iff.1 hp).1
      simp only [kraftK, List.modify_succ_cons, List.length_modify, List.length_cons]
      have e : K.length + 1 - 1 - (h + 1) = K.length - 1 - h := by omega
      rw [e]; omega

theorem leafK_le_kraftK : ∀ K : KT, leafK K ≤ kraftK K := by
  intro K
  induction K with
  | nil => simp [leafK, kraftK]
  | cons p K ih =>
    simp only [leafK, kraftK, List.map_cons, List.sum_cons] at ih ⊢
    have : p.2.count true * 1 ≤ p.2.count true * 3 ^ K.length := Nat.mul_le_mul_left _ (Nat.one_le_pow _ _ (by omega))
    omega

theorem leafK_pos_of_kraftK : ∀ K : KT, 0 < kraftK K → ∃ h i, leafAtK K h i := by
  intro K
  induction K with
  | nil => simp [kraftK]
  | cons p K ih =>
    intro h
    simp only [kraftK] at h
    by_cases hc : p.2.count true = 0
    · rw [hc] at h
      obtain ⟨h', i, q, h1, h2⟩ := ih (by omega)
      exact ⟨h' + 1, i, q, by rw [List.getElem?_cons_succ]; exact h1, h2⟩
    · obtain ⟨i, hi, he⟩ := List.getElem_of_mem (List.count_pos_iff.1 (Nat.pos_of_ne_zero hc))
      exact ⟨0, i, p, rfl, by rw [List.getElem?_eq_getElem hi, he]⟩

theorem count_set_false {l : List Bool} {i : Nat} (h : l[i]? = some true) : (l.set i false).count true + 1 = l.count true := by
  induction l generalizing i with
  | nil => simp at h
  | cons a l ih =>
    cases i with
    | zero => simp only [List.getElem?_cons_zero, Option.some.injEq] at h; subst h; simp
    | succ i =>
      rw [List.getElem?_cons_succ] at h
      have := ih h
      simp only [List.set_cons_succ, List.count_cons]; omega

theorem splitK_get (K : KT) (h i : Nat) (v1 v2 v3 : List XR) (k : Nat) : (splitK K h i v1 v2 v3)[k]? =
    (K[k]?).map fun p => if k = h then (p.1, p.2.set i false) else if k = h + 1 then (p.1 ++ [v1, v2, v3], p.2 ++ [true, true, true]) else p := by
  unfold splitK
  rw [List.getElem?_modify, List.getElem?_modify]
  cases K[k]? with
  | none => rfl
  | some p =>
    by_cases e : k = h
    · subst e; simp
    · by_cases e' : k = h + 1
      · subst e'; simp
      · have e1 : ¬ h = k := fun q => e q.symm
        have e2 : ¬ h + 1 = k := fun q => e' q.symm
        simp [e, e', e1, e2]

theorem splitK_leafAt {K : KT} {h i : Nat} {v1 v2 v3 : List XR} {h' i' : Nat} (hl : leafAtK K h' i') (hne : h' ≠ h) : leafAtK (splitK K h i v1 v2 v3) h' i' := by
  obtain ⟨p, h1, h2⟩ := hl
  by_cases e' : h' = h + 1
  · refine ⟨(p.1 ++ [v1, v2, v3], p.2 ++ [true, true, true]), by rw [splitK_get, h1]; simp only [Option.map_some, if_neg hne, if_pos e'], ?_⟩
    simp only
    rw [List.getElem?_append_left (List.getElem?_eq_some_iff.1 h2).1]; exact h2
  · exact ⟨p, by rw [splitK_get, h1]; simp only [Option.map_some, if_neg hne, if_neg e'], h2⟩

theorem splitK_not_leafAt {K : KT} {h i : Nat} {v1 v2 v3 : List XR} : ¬ leafAtK (splitK K h i v1 v2 v3) h i := by
  rintro ⟨p, h1, h2⟩
  rw [splitK_get, Option.map_eq_some_iff] at h1
  obtain ⟨q, h1, rfl⟩ := h1
  simp only [if_true] at h2
  rw [List.getElem?_set] at h2
  simp only [if_true] at h2
  split at h2 <;> cases h2

theorem splitK_leafAt_back {K : KT} {h i : Nat} {v1 v2 v3 : List XR} {h' i' : Nat} (hl : leafAtK (splitK K h i v1 v2 v3) h' i') (hlt : h' < h) : leafAtK K h' i' := by
  obtain ⟨p, h1, h2⟩ := hl
  rw [splitK_get, Option.map_eq_some_iff] at h1
  obtain ⟨q, h1, rfl⟩ := h1
  rw [if_neg (by omega), if_neg (by omega)] at h2
  exact ⟨q, h1, h2⟩

theorem splitK_leafK {K : KT} {h i : Nat} {v1 v2 v3 : List XR} (hl : leafAtK K h i) (hlen : h + 1 < K.length) :
    leafK (splitK K h i v1 v2 v3) = leafK K + 2 ∧ kraftK (splitK K h i v1 v2 v3) = kraftK K := by
  obtain ⟨p, h1, h2⟩ := hl
  have hc := count_set_false h2
  obtain ⟨q, hq⟩ : ∃ q, K[h + 1]? = some q := ⟨_, List.getElem?_eq_getElem hlen⟩
  have hq' : (K.modify h fun p => (p.1, p.2.set i false))[h + 1]? = some q := by
    rw [List.getElem?_modify, hq]; simp
  have a1 := leafK_modify (fun p => (p.1, p.2.set i false)) h1
  have a2 := leafK_modify (fun p => (p.1 ++ [v1, v2, v3], p.2 ++ [true, true, true])) hq'
  have b1 := kraftK_modify (fun p => (p.1, p.2.set i false)) h1
  have b2 := kraftK_modify (fun p => (p.1 ++ [v1, v2, v3], p.2 ++ [true, true, true])) hq'
  have hct : (q.2 ++ [true, true, true]).count true = q.2.count true + 3 := by rw [List.count_append]; rfl
  simp only [hct] at a2 b2
  simp only at a1 b1
  rw [List.length_modify] at b2
  refine ⟨by unfold splitK; omega, ?_⟩
  have e : K.length - 1 - h = (K.length - 1 - (h + 1)) + 1 := by omega
  rw [e, pow_succ] at b1
  rw [← hc] at b1
  unfold splitK
  generalize 3 ^ (K.length - 1 - (h + 1)) = w at b1 b2
  have b1' : kraftK (K.modify h fun p => (p.1, p.2.set i false)) + 3 * w = kraftK K := by linarith
  have b2' := b2
  rw [add_mul] at b2'
  omega

/-- what holds of the tree between two passes and during the last part of a pass -/
structure TK (K : KT) (depth : Nat) : Prop where
  fin : ∀ p ∈ K, ∀ v ∈ p.1, AllFinite v
  deep : ∀ (h : Nat) (p : List (List XR) × List Bool), depth < h → K[h]? = some p → p.2 = []
  kraft : kraftK K = 3 ^ (K.length - 1)
  al : ∀ p ∈ K, p.1.length = p.2.length

theorem TK.split {K : KT} {depth h i : Nat} {v1 v2 v3 : List XR} (I : TK K depth) (hl : leafAtK K h i) (hlen : h + 1 < K.length) (h1 : AllFinite v1)
    (h2 : AllFinite v2) (h3 : AllFinite v3) : TK (splitK K h i v1 v2 v3) (max depth (h + 1)) := by
  refine ⟨?_, ?_, ?_, ?_⟩
  · intro p hp v hv
    obtain ⟨k, hk, he⟩ := List.getElem_of_mem hp
    have hg : (splitK K h i v1 v2 v3)[k]? = some p := by rw [List.getElem?_eq_getElem hk, he]
    rw [splitK_get, Option.map_eq_some_iff] at hg
    obtain ⟨q, hq, rfl⟩ := hg
    have hqm := List.mem_of_getElem? hq
    split at hv
    · exact I.fin q hqm v hv
    · split at hv
      · simp only [List.mem_append, List.mem_cons, List.not_mem_nil, or_false] at hv
        rcases hv with hv | rfl | rfl | rfl
        · exact I.fin q hqm v hv
        · exact h1
        · exact h2
        · exact h3
      · exact I.fin q hqm v hv
  · intro k p hk hg
    rw [splitK_get, Option.map_eq_some_iff] at hg
    obtain ⟨q, hq, rfl⟩ := hg
    rw [if_neg (by omega), if_neg (by omega)]
    exact I.deep k q (by omega) hq
  · rw [(splitK_leafK hl hlen).2, I.kraft]
    simp [splitK]
  · intro p hp
    obtain ⟨k, hk, he⟩ := List.getElem_of_mem hp
    have hg : (splitK K h i v1 v2 v3)[k]? = some p := by rw [List.getElem?_eq_getElem hk, he]
    rw [splitK_get, Option.map_eq_some_iff] at hg
    obtain ⟨q, hq, rfl⟩ := hg
    have := I.al q (List.mem_of_getElem? hq)
    split
    · simpa using this
    · split
      · simpa using this
      · exact this

/-- cell `(h, i)` with the value `v` is not a leaf any more, and its middle third is a leaf with the same value -/
def Trisected (K : KT) (h i : Nat) (v : List XR) : Prop := ¬ leafAtK K h i ∧ ∃ (i' : Nat) (p : List (List XR) × List Bool), K[h + 1]? = some p ∧ p.2[i']? = some true ∧ p.1[i']? = some v

/-- state during steps (iv)-(v): `h`, `i`, `b` is the leaf selected last -/
structure Ex (K0 : KT) (s2 : ImState XR M) (D h i : Nat) (b : XR) (vv : List XR) (k : Nat) (st : ImState XR M) (e : Nat) (new : List (List XR)) : Prop where
  le : e ≤ k
  obs : Obs (2 * e) new s2 st
  cnt : leafK (st.tree.map fkey) = leafK K0 + 2 * e
  tk : TK (st.tree.map fkey) st.depth
  zero : e = 0 → st.bhi2 = negInf
  sel : ∀ k' j, k ≤ k' → s2.imax[k']? = some (some j) → leafAtK (st.tree.map fkey) k' j
  val : ∃ p, (st.tree.map fkey)[h]? = some p ∧ p.1[i]? = some vv
  done : h < k → 1 ≤ e ∧ (Trisected (st.tree.map fkey) h i vv ∨ ∃ v ∈ new, Limbo.le b (imFirst v) = true)
  dlo : D ≤ st.depth
  dhi : st.depth ≤ max D k

theorem first_number {v : List XR} (hv : AllFinite v) (hne : v ≠ []) : isNaN (imFirst v) = false := by
  cases v with
  | nil => exact absurd rfl hne
  | cons y ys =>
    exact (hv y (by simp)).1

theorem imStep45_ex {P : ImParams XR M} {f : StateFun XR M} {afun : List XR → XR} (hE : ∀ m n x, AllFinite (P.est m n x)) {K0 : KT} {s2 : ImState XR M}
    {D h i : Nat} {b : XR} {vv : List XR} (hb2 : s2.bhi2 = negInf) (hb : lt negInf b = true) (hi : s2.imax[h]? = some (some i)) (hbm : s2.bmax[h]? = some b)
    (hnone : ∀ (k j : Nat), h < k → s2.imax[k]? ≠ some (some j))
    {k : Nat} {st st' : ImState XR M} (S : ∃ e new, Ex K0 s2 D h i b vv k st e new)
    (hr : imStep45 P f afun k st = .ok st') : ∃ e new, Ex K0 s2 D h i b vv (k + 1) st' e new := by
  obtain ⟨e, new, S⟩ := S
  unfold imStep45 at hr
  rw [S.obs.imax, S.obs.bmax] at hr
  have keep : (k = h → 1 ≤ e ∧ (Trisected (st.tree.map fkey) h i vv ∨ ∃ v ∈ new, Limbo.le b (imFirst v) = true)) → st' = st →
      ∃ e new, Ex K0 s2 D h i b vv (k + 1) st' e new := by
    intro hd hst
    subst hst
    refine ⟨e, new, by have := S.le; omega, S.obs, S.cnt, S.tk, S.zero, fun k' j hk => S.sel k' j (by omega), S.val, ?_, S.dlo, by have := S.dhi; omega⟩
    intro hk
    by_cases hkh : k = h
    · exact hd hkh
    · exact S.done (by omega)
  split at hr
  · next h1 h2 =>
    simp only [Res.ok.injEq] at hr
    refine keep ?_ hr.symm
    intro e; subst e; rw [hi] at h1; cases h1
  · next j c h1 h2 =>
    split at hr
    · next hlt =>
      obtain ⟨L, v1, v2, v3, n2, g1, g2, g3, g4, g5, g6, g7, g8⟩ := imExpand_ok hE hr
      have hleaf := S.sel k j le_rfl h1
      have hlen : k + 1 < (st.tree.map fkey).length := by rw [List.length_map]; exact g5
      have hv3 : AllFinite v3 := by
        refine S.tk.fin (fkey L) ?_ v3 (List.mem_of_getElem? g2)
        exact List.mem_map.2 ⟨L, List.mem_of_getElem? g1, rfl⟩
      refine ⟨e + 1, new ++ n2, ?_⟩
      have hO := S.obs.trans g8
      refine ⟨by have := S.le; omega, by rw [show 2 * (e + 1) = 2 * e + 2 by ring]; exact hO, ?_, ?_, by omega, ?_, ?_, ?_, by rw [g7]; have := S.dlo; omega,
        by rw [g7]; have := S.dhi; omega⟩
      · rw [g6, (splitK_leafK hleaf hlen).1, S.cnt]; ring
      · rw [g6, g7]; exact S.tk.split hleaf hlen g3 g4 hv3
      · intro k' j' hk' hs
        rw [g6]; exact splitK_leafAt (S.sel k' j' (by omega) hs) (by omega)
      · obtain ⟨p, hp1, hp2⟩ := S.val
        rw [g6, splitK_get, hp1]
        refine ⟨_, rfl, ?_⟩
        split
        · exact hp2
        · split
          · simp only
            rw [List.getElem?_append_left (List.getElem?_eq_some_iff.1 hp2).1]; exact hp2
          · exact hp2
      · intro hk
        refine ⟨by omega, ?_⟩
        by_cases hkh : k = h
        · subst hkh
          rw [hi] at h1; cases h1
          left; rw [g6]
          refine ⟨splitK_not_leafAt, ?_⟩
          obtain ⟨q, hq⟩ : ∃ q, (st.tree.map fkey)[k + 1]? = some q := ⟨_, List.getElem?_eq_getElem hlen⟩
          have hal := S.tk.al q (List.mem_of_getElem? hq)
          obtain ⟨p, hp1, hp2⟩ := S.val
          rw [List.getElem?_map, g1] at hp1
          simp only [Option.map_some, Option.some.injEq] at hp1
          subst hp1
          have hvv : v3 = vv := by
            simp only [fkey] at hp2
            rw [g2] at hp2; exact Option.some.inj hp2
          refine ⟨q.2.length + 2, (q.1 ++ [v1, v2, v3], q.2 ++ [true, true, true]), by rw [splitK_get, hq]; simp, by simp, ?_⟩
          simp only
          rw [← hal, hvv]; simp
        · exact absurd h1 (hnone k j (by omega))
    · next hlt =>
      simp only [Res.ok.injEq] at hr
      refine keep ?_ hr.symm
      intro hkh
      subst hkh
      rw [hi] at h1; cases h1
      rw [hbm] at h2; cases h2
      have hne : st.bhi2 ≠ negInf := by intro hq; rw [hq] at hlt; exact hlt hb
      refine ⟨by rcases Nat.eq_zero_or_pos e with h0 | h0
                 · exact absurd (S.zero h0) hne
                 · exact h0, Or.inr ?_⟩
      rcases S.obs.bhi2 with hq | ⟨v, hv, hq⟩
      · exact absurd (hq.trans hb2) hne
      · refine ⟨v, hv, ?_⟩
        rw [← hq]
        have hn := first_number (S.obs.fin v hv).1 (S.obs.fin v hv).2
        rw [← hq] at hn
        exact LawfulCmp.le_of_not_lt hn (LawfulCmp.not_nan_of_lt hb).2 (by simpa using hlt)
  · cases hr

end Limbo
