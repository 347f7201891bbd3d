import Verif.Lemmas.Imgpo9

/-! A whole pass of IMGPO, and the heads of its main loop. -/

namespace Limbo

variable {M : Type}

theorem exists_max_number : ∀ {l : List XR}, l ≠ [] → (∀ x ∈ l, isNaN x = false) → ∃ m ∈ l, ∀ x ∈ l, le x m = true := by
  intro l
  induction l with
  | nil => intro h; exact absurd rfl h
  | cons a l ih =>
    intro _ hn
    have ha := LawfulCmp.le_refl' a (hn a (by simp))
    by_cases hl : l = []
    · subst hl; exact ⟨a, by simp, by simpa using ha⟩
    · obtain ⟨m, hm, hmax⟩ := ih hl fun x hx => hn x (by simp [hx])
      rcases LawfulCmp.le_total a m (hn a (by simp)) (hn m (by simp [hm])) with h | h
      · refine ⟨m, by simp [hm], fun x hx => ?_⟩
        rcases List.mem_cons.1 hx with rfl | hx
        · exact h
        · exact hmax x hx
      · refine ⟨a, by simp, fun x hx => ?_⟩
        rcases List.mem_cons.1 hx with rfl | hx
        · exact ha
        · exact LawfulCmp.le_trans _ _ _ (hmax x hx) h

/-- the values of all leaves -/
noncomputable def leafVals (afun : List XR → XR) (T : List (Lev XR)) : List XR :=
  T.flatMap fun L => ((L.leaf.zip L.f).filter fun q => q.1).map fun q => afun q.2

theorem mem_leafVals {afun : List XR → XR} {T : List (Lev XR)} {b : XR} : b ∈ leafVals afun T ↔ ∃ h i, LeafWith afun T h i b := by
  unfold leafVals LeafWith
  simp only [List.mem_flatMap, List.mem_map, List.mem_filter, Prod.exists]
  constructor
  · rintro ⟨L, hL, l, v, ⟨hm, hl⟩, rfl⟩
    obtain ⟨h, hh⟩ := List.getElem?_of_mem hL
    obtain ⟨i, hi⟩ := List.getElem?_of_mem hm
    rw [List.getElem?_zip_eq_some] at hi
    subst hl
    exact ⟨h, i, L, v, hh, hi.1, hi.2, rfl⟩
  · rintro ⟨h, i, L, v, h1, h2, h3, rfl⟩
    refine ⟨L, List.mem_of_getElem? h1, true, v, ⟨?_, rfl⟩, rfl⟩
    exact List.mem_of_getElem? (i := i) (List.getElem?_zip_eq_some.2 ⟨h2, h3⟩)

theorem fkey_mem {T : List (Lev XR)} {h : Nat} {L : Lev XR} (hL : T[h]? = some L) : fkey L ∈ T.map fkey :=
  List.mem_map.2 ⟨L, List.mem_of_getElem? hL, rfl⟩

/-- there is a highest value, and a first level with a leaf of that value -/
theorem exists_best {afun : List XR → XR} (hA : ∀ v, AllFinite v → lt negInf (afun v) = true) {T : List (Lev XR)} {D : Nat} (tk : TK (T.map fkey) D)
    (hal : ∀ (k : Nat) (L : Lev XR), T[k]? = some L → L.leaf.length = L.f.length) :
    ∃ h b, h ≤ D ∧ (∃ i, LeafWith afun T h i b) ∧ (∀ k i c, LeafWith afun T k i c → le c b = true) ∧
      (∀ k i c, LeafWith afun T k i c → k < h → lt c b = true) ∧ lt negInf b = true := by
  have hnum : ∀ {k i c}, LeafWith afun T k i c → lt negInf c = true := by
    rintro k i c ⟨L, v, h1, h2, h3, rfl⟩
    exact hA v (tk.fin _ (fkey_mem h1) v (List.mem_of_getElem? h3))
  have hne : leafVals afun T ≠ [] := by
    obtain ⟨h, i, p, h1, h2⟩ := leafK_pos_of_kraftK _ (by rw [tk.kraft]; positivity)
    rw [List.getElem?_map, Option.map_eq_some_iff] at h1
    obtain ⟨L, h1, rfl⟩ := h1
    have hi : i < L.f.length := by rw [← hal h L h1]; exact (List.getElem?_eq_some_iff.1 h2).1
    have : afun L.f[i] ∈ leafVals afun T := mem_leafVals.2 ⟨h, i, L, L.f[i], h1, h2, List.getElem?_eq_getElem hi, rfl⟩
    exact List.ne_nil_of_mem this
  obtain ⟨b, hb, hmax⟩ := exists_max_number hne (by
    intro x hx
    obtain ⟨h, i, hl⟩ := mem_leafVals.1 hx
    exact (LawfulCmp.not_nan_of_lt (hnum hl)).2)
  have hmax' : ∀ k i c, LeafWith afun T k i c → le c b = true := fun k i c hl => hmax c (mem_leafVals.2 ⟨k, i, hl⟩)
  have hex : ∃ h, ∃ i c, LeafWith afun T h i c ∧ le b c = true := by
    obtain ⟨h, i, hl⟩ := mem_leafVals.1 hb
    exact ⟨h, i, b, hl, LawfulCmp.le_refl' b (LawfulCmp.not_nan_of_lt (hnum hl)).2⟩
  classical
  obtain ⟨i, c, hl, hbc⟩ := Nat.find_spec hex
  refine ⟨Nat.find hex, c, ?_, ⟨i, hl⟩, fun k j e he => LawfulCmp.le_trans _ _ _ (hmax' k j e he) hbc, ?_, hnum hl⟩
  · by_contra hc
    obtain ⟨L, v, h1, h2, -, -⟩ := hl
    have := tk.deep (Nat.find hex) (fkey L) (by omega) (by rw [List.getElem?_map, h1]; rfl)
    simp only [fkey] at this
    rw [this] at h2; simp at h2
  · intro k j e he hk
    have hnot := Nat.find_min hex hk
    have hee : isNaN e = false := (LawfulCmp.not_nan_of_lt (hnum he)).2
    have hcc : isNaN c = false := (LawfulCmp.not_nan_of_lt (hnum hl)).2
    cases hlt : lt e c with
    | true => rfl
    | false => exact absurd ⟨j, e, he, LawfulCmp.le_trans _ _ _ hbc (LawfulCmp.le_of_not_lt hee hcc hlt)⟩ hnot

/-- what one pass does -/
theorem imPass_best {P : ImParams XR M} {f : StateFun XR M} {afun : List XR → XR} (hE : ∀ m n x, AllFinite (P.est m n x))
    (hA : ∀ v, AllFinite v → lt negInf (afun v) = true) {st st' : ImState XR M}
    (hal : ∀ (k : Nat) (L : Lev XR), st.tree[k]? = some L → L.leaf.length = L.x.length ∧ L.f.length = L.x.length)
    (tk : TK (st.tree.map fkey) st.depth) (hr : imPass P f afun st = .ok st') :
    ∃ h i vv new e, BestLeaf afun st.tree h i (afun vv) ∧ (∃ p, (st.tree.map fkey)[h]? = some p ∧ p.1[i]? = some vv) ∧ st'.base.observations = st.base.observations ++ new ∧ new.length ≤ 3 * (st.depth + 1) ∧
      st'.base.currentIteration = st.base.currentIteration + new.length ∧
      (Trisected (st'.tree.map fkey) h i vv ∨ ∃ v ∈ new, v ≠ [] ∧ le (afun vv) (imFirst v) = true) ∧ 1 ≤ e ∧
      leafK (st'.tree.map fkey) = leafK (st.tree.map fkey) + 2 * e ∧ TK (st'.tree.map fkey) st'.depth ∧ st.depth ≤ st'.depth ∧ st'.depth ≤ st.depth + 1 := by
  obtain ⟨h, b, hh, hex, hmax, hfst, hb⟩ := exists_best hA tk fun k L hL => by rw [(hal k L hL).1, (hal k L hL).2]
  unfold imPass at hr
  simp only at hr
  obtain ⟨s1, e1, hr⟩ := Res.andThen_ok hr
  obtain ⟨s2, e2, hr⟩ := Res.andThen_ok hr
  obtain ⟨s3, e3, hr⟩ := Res.andThen_ok hr
  -- steps (i)-(ii)
  have S1 : Sel afun st.tree st.depth h b st.base (st.depth + 1) s1 := by
    refine imEach_ok (fun k hk s s' => imStep12_sel hh (fun k L hL => (hal k L hL).1) hmax hfst hex hk) ?_ e1
    refine ⟨rfl, rfl, by simp, by simp, Evals.refl _, ?_, fun _ => hb, by omega, ?_⟩
    · intro k' _ h2; simp only [List.getElem?_replicate]; rw [if_pos (by omega)]
    · intro k' i hi; simp only [List.getElem?_replicate] at hi; split at hi <;> simp at hi
  obtain ⟨hbb, i, hli, hs1, hs2, hs3⟩ := S1.post (by omega)
  -- step (iii)
  have S2 : s2.tree = s1.tree ∧ s2.depth = s1.depth ∧ s2.bmax = s1.bmax ∧ Evals 0 s1.base s2.base ∧ s2.imax[h]? = some (some i) ∧
      ∀ (k j : Nat), s2.imax[k]? = some (some j) → s1.imax[k]? = some (some j) := by
    refine imEach_ok (J := fun _ s => s.tree = s1.tree ∧ s.depth = s1.depth ∧ s.bmax = s1.bmax ∧ Evals 0 s1.base s.base ∧ s.imax[h]? = some (some i) ∧
      ∀ (k j : Nat), s.imax[k]? = some (some j) → s1.imax[k]? = some (some j)) ?_ ⟨rfl, rfl, rfl, Evals.refl _, hs1, fun _ _ h => h⟩ e2
    rintro k hk s s' ⟨a1, a2, a3, a4, a5, a6⟩ hr
    obtain ⟨b1, b2, b3, b4, b5⟩ := imStep3_ok hr
    refine ⟨b1.trans a1, b2.trans a2, b3.trans a3, a4.trans b4, ?_, ?_⟩
    · rcases b5 with b5 | ⟨b5, h2, hlt, j, hj⟩
      · rw [b5]; exact a5
      · have hk2 : k ≠ h := by
          rintro rfl
          have hj1 := a6 h2 j hj
          have hle : h2 ≤ st.depth := by
            have := (List.getElem?_eq_some_iff.1 hj1).1
            rw [S1.lim] at this; omega
          rw [hs3 h2 hlt hle] at hj1; cases hj1
        rw [b5, List.getElem?_set_ne hk2]; exact a5
    · intro k' j hj
      rcases b5 with b5 | ⟨b5, -⟩
      · rw [b5] at hj; exact a6 k' j hj
      · rw [b5, List.getElem?_set] at hj
        split at hj
        · split at hj <;> simp at hj
        · exact a6 k' j hj
  obtain ⟨c1, c2, c3, c4, c5, c6⟩ := S2
  -- steps (iv)-(v)
  have hK : s2.tree.map fkey = st.tree.map fkey := by rw [c1]; exact fkey_of_lkey S1.key
  have hd2 : s2.depth = st.depth := c2.trans S1.dep
  have hbn : lt negInf s1.bhi = true := LawfulCmp.lt_of_lt_of_le hb hbb
  obtain ⟨LL, vv, g1, g2, g3, g4⟩ := id hli
  have hnone : ∀ (k j : Nat), h < k → s2.imax[k]? ≠ some (some j) := by
    intro k j hk hj
    have hj1 := c6 k j hj
    have hle : k ≤ st.depth := by
      have := (List.getElem?_eq_some_iff.1 hj1).1
      rw [S1.lim] at this; omega
    rw [hs3 k hk hle] at hj1; cases hj1
  have S3 : ∃ e new, Ex (st.tree.map fkey) { s2 with bhi2 := negInf } st.depth h i s1.bhi vv (st.depth + 1) s3 e new := by
    refine imEach_ok (J := fun k s => ∃ e new, Ex (st.tree.map fkey) { s2 with bhi2 := negInf } st.depth h i s1.bhi vv k s e new)
      (fun k hk s s' S hr => imStep45_ex (s2 := { s2 with bhi2 := negInf }) hE rfl hbn c5 (by rw [← c3] at hs2; exact hs2) hnone S hr) ?_ e3
    refine ⟨0, [], le_rfl, ⟨by simp, by simp, by simp, by simp, Or.inl rfl, rfl, rfl⟩, ?_, ?_, fun _ => rfl, ?_, ?_, by omega, by simp only; omega, by simp only; omega⟩
    · simp only; rw [hK]; rfl
    · simp only; rw [hK, hd2]; exact tk
    · intro k' j _ hj
      simp only; rw [hK]
      obtain ⟨c, ⟨L, v, l1, l2, -, -⟩, -⟩ := S1.leaf k' j (c6 k' j hj)
      exact ⟨fkey L, by rw [List.getElem?_map, l1]; rfl, l2⟩
    · simp only; rw [hK, List.getElem?_map, g1]
      exact ⟨_, rfl, g3⟩
  obtain ⟨e, new, S3⟩ := S3
  simp only [Res.ok.injEq] at hr
  subst hr
  obtain ⟨n1, p1, p2, p3, p4⟩ := S1.ev.trans c4
  obtain ⟨d1, d2⟩ := S3.done (by omega)
  refine ⟨h, i, vv, n1 ++ new, e, by rw [g4]; exact ⟨hli, fun k j c hc => LawfulCmp.le_trans _ _ _ (hmax k j c hc) hbb⟩,
    ⟨fkey LL, by rw [List.getElem?_map, g1]; rfl, g3⟩, ?_, ?_, ?_, ?_, d1, S3.cnt, S3.tk, S3.dlo, ?_⟩
  · have := S3.obs.obs
    simp only at this ⊢
    rw [this, p1, List.append_assoc]
  · have := S3.obs.len
    have := S3.le
    rw [List.length_append]; omega
  · have := S3.obs.it
    simp only at this ⊢
    rw [this, p3, List.length_append]; push_cast; ring
  · rcases d2 with d2 | ⟨v, hv, hle⟩
    · left; exact d2
    · right; exact ⟨v, by simp [hv], (S3.obs.fin v hv).2, by rw [g4]; exact hle⟩
  · have := S3.dhi
    simp only; omega

end Limbo
