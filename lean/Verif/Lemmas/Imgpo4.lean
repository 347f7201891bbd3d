import Verif.Lemmas.Imgpo3

/-! Helper lemmas about IMGPO: expansions, passes, the main loop and `optimize`. -/

namespace Limbo

variable {M : Type} {d : Nat} {fresh U V : Prop} {pre : List (List XR)} {N D e k : Nat}

theorem maxElementFrom_lt {β : Type} [Scalar β] : ∀ (l : List β) (bi : Nat) (b : β) (i : Nat), bi < i → maxElementFrom bi b i l < i + l.length := by
  intro l
  induction l with
  | nil => intro bi b i h; simpa [maxElementFrom] using h
  | cons x xs ih =>
    intro bi b i h
    simp only [maxElementFrom, List.length_cons]
    split
    · have := ih i x (i + 1) (by omega); omega
    · have := ih bi b (i + 1) (by omega); omega

theorem maxElement_lt {β : Type} [Scalar β] {l : List β} (h : l ≠ []) : maxElement l < l.length := by
  cases l with
  | nil => exact absurd rfl h
  | cons x xs =>
    have := maxElementFrom_lt xs 0 x 1 (by omega)
    simp only [maxElement, List.length_cons]; omega

theorem imExpand_post {P : ImParams XR M} (hP : ComputeOk P U V) (hd : 0 < d) {f : StateFun XR M} (hf : ∀ tr x, f.call tr x = .ret [] → U)
    (afun : List XR → XR) (h i : Nat) (hh : h ≤ D) (st : ImState XR M) (I : ImI d fresh pre N D 1 h st) (hl : LeafAt st.tree h i)
    (hN : U ∨ h + 1 < N) : (imExpand P f afun h i st).Post U V (ImI d fresh pre N D 1 (h + 1)) (ImT d fresh pre) := by
  obtain ⟨L, hL, hlf⟩ := hl
  have ok := I.lev h L hL
  have hi : i < L.x.length := by rw [← ok.lleaf]; exact (List.getElem?_eq_some_iff.1 hlf).1
  obtain ⟨C, c1, c2, c3, hg⟩ := ok.cells i hi
  have hfi : i < L.f.length := by rw [ok.lf]; exact hi
  obtain ⟨s, hs, hside, hmax⟩ := Cell.side_fin hg hd
  have hlt : h < st.tree.length := (List.getElem?_eq_some_iff.1 hL).1
  unfold imExpand
  simp only [hL, imLev]
  rw [if_pos hlt]
  simp only [Res.andThen, Res.bind, c1, c2, c3, hside, List.getElem?_eq_getElem hfi]
  rw [if_pos (by simp only [List.length_map, hg.lc]; exact hs)]
  rw [imG_fin, imD_fin, imL_fin, imR_fin, map_fin_set, map_fin_set, map_fin_set, map_fin_set, map_fin_set, map_fin_set]
  rcases Nat.lt_or_ge (h + 1) N with h1 | h1
  swap
  · -- the next level does not exist
    have hU : U := by rcases hN with hU | h2; exacts [hU, absurd h2 (by omega)]
    have hub : ¬ (h + 1 < st.tree.length) := by rw [I.len]; omega
    simp only [imChild, imLev, List.length_modify, if_neg hub, Res.andThen, Res.bind]
    exact hU
  have hlen1 : h + 1 < st.tree.length := by rw [I.len]; exact h1
  refine Res.Post.andThen (imChild_post hP hf afun (h + 1) (C.left s).c (Cell.good_left hg hs hmax).unit _ _ _ (by simpa using hlen1) I.b) ?_
  rintro s1 ⟨b1, ⟨v1, t1, e1⟩, d1, i1, m1⟩
  simp only at e1 d1 i1 m1
  refine Res.Post.andThen (imChild_post hP hf afun (h + 1) (C.right s).c (Cell.good_right hg hs hmax).unit _ _ s1
    (by rw [e1]; simpa using hlen1) b1) ?_
  rintro s2 ⟨b2, ⟨v2, t2, e2⟩, d2, i2, m2⟩
  rw [if_pos (by rw [e2, e1]; simpa using hlen1)]
  simp only
  have hob : maxElement (s2.base.observations.map imFirst) < s2.base.observations.length := by
    have := maxElement_lt (l := s2.base.observations.map imFirst) (by simpa using b2.ne)
    simpa using this
  simp only [bestObservation, List.getElem?_eq_getElem hob]
  have htree : s2.tree.modify (h + 1) (pushCell ((C.mid s).c.map XR.fin) ((C.mid s).a.map XR.fin) ((C.mid s).b.map XR.fin) L.f[i] true) =
      expandTree st.tree h i s C v1 v2 L.f[i] t1 t2 := by
    rw [e2, e1, List.modify_modify_eq, List.modify_modify_eq]
    rfl
  have hlo := I.lo
  have hhi := I.hi
  have hlt' := I.lt
  have key : ImI d fresh pre N D 1 (h + 1) { s2 with tree := expandTree st.tree h i s C v1 v2 L.f[i] t1 t2 } := by
    refine ⟨levOk_expand I.lev hg hs hmax, fun hfr => tiles_expand I.lev (I.tiles hfr) ⟨L, hL, hlf⟩ ⟨L, hL, c1, c2, c3⟩ hg hs hlen1, b2, ?_, ?_, ?_, ?_,
      ?_, ?_, ?_⟩
    · simp only [expand_length]; exact I.len
    · simp only [d2, d1]; omega
    · simp only [d2, d1]; omega
    · simp only [d2, d1]; omega
    · simp only [i2, i1]; exact I.li
    · simp only [m2, m1]; exact I.lb
    · intro h' i' h0 hi'
      simp only [i2, i1] at hi'
      refine expand_old I.lev ?_ (I.vi h' i' (by omega) hi')
      intro e; cases e; omega
  rw [← htree] at key
  exact ⟨key.lev, key.tiles, key.b, key.len, key.lo, key.hi, key.lt, key.li, key.lb, key.vi⟩

theorem imStep45_post {P : ImParams XR M} (hP : ComputeOk P U V) (hd : 0 < d) {f : StateFun XR M} (hf : ∀ tr x, f.call tr x = .ret [] → U)
    (afun : List XR → XR) (h : Nat) (hh : h ≤ D) (st : ImState XR M) (I : ImI d fresh pre N D 1 h st) (hN : U ∨ D + 1 < N) :
    (imStep45 P f afun h st).Post U V (ImI d fresh pre N D 1 (h + 1)) (ImT d fresh pre) := by
  have hlm : h < st.imax.length := by rw [I.li]; omega
  have hlb : h < st.bmax.length := by rw [I.lb]; omega
  have Iw : ImI d fresh pre N D 1 (h + 1) st :=
    ⟨I.lev, I.tiles, I.b, I.len, I.lo, I.hi, I.lt, I.li, I.lb, fun h' i' h0 hi' => I.vi h' i' (by omega) hi'⟩
  unfold imStep45
  rw [List.getElem?_eq_getElem hlm, List.getElem?_eq_getElem hlb]
  cases him : st.imax[h] with
  | none => exact Iw
  | some i =>
    simp only
    split
    · refine imExpand_post hP hd hf afun h i hh st I (I.vi h i (le_refl _) (by rw [List.getElem?_eq_getElem hlm, him])) ?_
      rcases hN with hU | h2
      · exact Or.inl hU
      · right; omega
    · exact Iw

/-- the invariant between passes -/
structure ImL (d : Nat) (fresh : Prop) (pre : List (List XR)) (N : Nat) (st : ImState XR M) : Prop where
  lev : ∀ h L, st.tree[h]? = some L → LevOk d h L
  tiles : fresh → Tiles d st.tree
  b : BInv d fresh pre st.base
  len : st.tree.length = N
  lt : st.depth < N

theorem imPass_post {P : ImParams XR M} (hP : ComputeOk P U V) (hd : 0 < d) {f : StateFun XR M} (hf : ∀ tr x, f.call tr x = .ret [] → U)
    (afun : List XR → XR) (st : ImState XR M) (I : ImL d fresh pre N st) (hN : U ∨ st.depth + 1 < N) :
    (imPass P f afun st).Post U V (fun st' => ImL d fresh pre N st' ∧ st'.depth ≤ st.depth + 1) (ImT d fresh pre) := by
  unfold imPass
  simp only [List.range_eq_range']
  refine Res.Post.andThen (imEach_post (J := fun _ => ImI d fresh pre N st.depth 0 0) _ _ ?_ _ ?_) ?_
  · intro k st' _ h2 I'
    exact imStep12_post f afun k (by omega) st' I'
  · refine ⟨I.lev, I.tiles, I.b, I.len, le_refl _, le_refl _, I.lt, by simp, by simp, ?_⟩
    intro h i _ hi
    simp only [List.getElem?_replicate] at hi
    split at hi <;> simp at hi
  intro s1 I1
  refine Res.Post.andThen (imEach_post (J := fun _ => ImI d fresh pre N st.depth 0 0) _ _ ?_ _ I1) ?_
  · intro k st' _ h2 I'
    exact imStep3_post hP hd afun k (by omega) st' I'
  intro s2 I2
  refine Res.Post.andThen (imEach_post (J := fun k => ImI d fresh pre N st.depth 1 k) _ _ ?_ _ ?_) ?_
  · intro k st' _ h2 I'
    exact imStep45_post hP hd hf afun k (by omega) st' I' hN
  · exact ⟨I2.lev, I2.tiles, I2.b, I2.len, I2.lo, by have := I2.hi; simp only; omega, I2.lt, I2.li, I2.lb, I2.vi⟩
  intro s3 I3
  exact ⟨⟨I3.lev, I3.tiles, I3.b, I3.len, I3.lt⟩, I3.hi⟩

theorem BInv.stop {P : BoParams XR M} {afun : List XR → XR} {b b' : BoState XR M} {r : Bool} (h : BInv d fresh pre b)
    (hs : boStop P afun b = some (r, b')) : BInv d fresh pre b' := by
  have hdat := fun hf => boStop_inv hs (h.data hf)
  obtain ⟨as, rfl, has⟩ := boStop_spec hs
  obtain ⟨new, h1, h2, h3⟩ := h.calls
  refine ⟨⟨⟨new, ?_, h2, h3⟩, hdat, h.len⟩, h.ne⟩
  simp only
  rw [callPts_append, (asked_nothing has).1, h1]
  simp

theorem imLoop_post {P : ImParams XR M} (hP : ComputeOk P U V) (hd : 0 < d) {f : StateFun XR M} (hf : ∀ tr x, f.call tr x = .ret [] → U)
    (afun : List XR → XR) (hs : ∀ b, boStop P.bo afun b = none → U) : ∀ (n : Nat) (st : ImState XR M), ImL d fresh pre N st → (U ∨ st.depth + n < N) →
    (imLoop P f afun n st).Post U True (fun st' => ImL d fresh pre N st' ∧ ∃ b, boStop P.bo afun b = some (true, st'.base)) (ImT d fresh pre) := by
  intro n
  induction n with
  | zero => intro st _ _; trivial
  | succ n ih =>
    intro st I hN
    have hP' : ComputeOk P U True := ⟨hP.ub, fun _ _ _ _ _ _ => trivial⟩
    unfold imLoop
    have hne : ¬ (st.base.samples.length = 0) := by
      rw [I.b.len]; intro e; exact I.b.ne (List.length_eq_zero_iff.1 e)
    rw [if_neg hne]
    cases hst : boStop P.bo afun st.base with
    | none => exact hs _ hst
    | some r =>
      obtain ⟨t, b⟩ := r
      have hb := I.b.stop hst
      cases t with
      | true => exact ⟨⟨I.lev, I.tiles, hb, I.len, I.lt⟩, st.base, hst⟩
      | false =>
        refine Res.Post.andThen (imPass_post hP' hd hf afun _ ⟨I.lev, I.tiles, hb, I.len, I.lt⟩ ?_) ?_
        · rcases hN with h | h
          · exact Or.inl h
          · right; simp only; omega
        · rintro s1 ⟨I1, h1⟩
          refine ih s1 I1 ?_
          rcases hN with h | h
          · exact Or.inl h
          · right; simp only at h1; omega

/-! ## The root -/

/-- the unit box -/
noncomputable def rootCell (d : Nat) : Cell := ⟨List.replicate d 0, List.replicate d 1, List.replicate d (1 / 2)⟩

theorem crd_replicate {d j : Nat} (hj : j < d) (c : ℝ) : crd (List.replicate d c) j = c := by
  simp [crd, List.getD_eq_getElem?_getD, hj]

theorem rootCell_good (d : Nat) : (rootCell d).Good d 0 := by
  refine ⟨by simp [rootCell], by simp [rootCell], by simp [rootCell], ?_, ⟨fun _ => 0, ?_, by simp, fun _ _ _ _ => Nat.zero_le _⟩, ?_⟩
  · intro j hj; simp only [rootCell, crd_replicate hj]; norm_num
  · intro j hj; simp only [rootCell, crd_replicate hj]; norm_num
  · intro j hj; simp only [rootCell, crd_replicate hj]; norm_num

theorem imRoot_post {f : StateFun XR M} (afun : List XR → XR) (st : ImState XR M) (hN : 0 < N) (hlen : st.tree.length = N)
    (hlev : ∀ h L, st.tree[h]? = some L → LevOk f.dimIn h L) (hfresh : fresh → ∀ (h : Nat) (L : Lev XR), st.tree[h]? = some L → L = ⟨[], [], [], [], [], []⟩)
    (hb : BPre f.dimIn fresh pre st.base) :
    (imRoot f afun st).Post U V (fun st' => ImL f.dimIn fresh pre N st' ∧ st'.depth = 0) (ImT f.dimIn fresh pre) := by
  have h0 : 0 < st.tree.length := by omega
  obtain ⟨L, hL⟩ : ∃ L, st.tree[0]? = some L := ⟨_, List.getElem?_eq_getElem h0⟩
  have ok := hlev 0 L hL
  have e1 : List.replicate f.dimIn (lit 1 : XR) = (rootCell f.dimIn).b.map XR.fin := by simp [rootCell, XR.lit_eq]
  have e2 : List.replicate f.dimIn (lit 0 : XR) = (rootCell f.dimIn).a.map XR.fin := by simp [rootCell, XR.lit_eq]
  have e3 : List.replicate f.dimIn (lit 1 * lit (1 / 2) : XR) = (rootCell f.dimIn).c.map XR.fin := by
    rw [XR.lit_eq, XR.lit_eq, XR.mul_fin]; simp [rootCell]
  -- the first point
  have hx0 : ∃ p, UnitPoint f.dimIn p ∧ (L.x ++ [(rootCell f.dimIn).c.map XR.fin])[0]? = some (p.map XR.fin) := by
    cases hx : L.x with
    | nil => exact ⟨_, (rootCell_good f.dimIn).unit, by simp⟩
    | cons y ys =>
      obtain ⟨C, -, -, c3, hg⟩ := ok.cells 0 (by rw [hx]; simp)
      refine ⟨C.c, hg.unit, ?_⟩
      rw [hx] at c3
      simpa using c3
  obtain ⟨p, hp, hpx⟩ := hx0
  unfold imRoot
  rw [e1, e2, e3]
  simp only [imLev]
  rw [if_pos h0]
  simp only [Res.andThen, Res.bind, List.getElem?_modify, hL, if_true, Option.map_eq_map, Option.map_some, Option.bind_some, hpx]
  cases hcall : f.call st.base.trace (p.map XR.fin) with
  | threw => exact bEval_threw hb hp
  | ret v =>
    simp only [List.length_modify]
    rw [if_pos h0]
    simp only [List.getElem?_modify, hL, if_true, Option.map_eq_map, Option.map_some, Option.bind_some]
    have hf0 : ∃ v0, (L.f ++ [v])[0]? = some v0 ∧ (fresh → v0 = v) := by
      cases hlf : L.f with
      | nil => exact ⟨v, by simp, fun _ => rfl⟩
      | cons y ys =>
        refine ⟨y, by simp, fun hfr => ?_⟩
        have := hfresh hfr 0 L hL
        rw [this] at hlf
        cases hlf
    obtain ⟨v0, hv0, hv1⟩ := hf0
    rw [hv0]
    simp only [imBase]
    have hev := bEval_ret hb hp v v0 hv1
    cases hadd : addNewSample (p.map XR.fin) v0 (st.base.push (.call (p.map XR.fin) (.ret v))) with
    | ub => rw [hadd] at hev; exact absurd hev (by simp [Res.Post])
    | diverge => rw [hadd] at hev; exact absurd hev (by simp [Res.Post])
    | throw ex b' => rw [hadd] at hev; exact hev
    | ok b' =>
      rw [hadd] at hev
      simp only [Res.bind, imTick]
      have htree : (st.tree.modify 0 fun L => { L with
            xmax := L.xmax ++ [(rootCell f.dimIn).b.map XR.fin], xmin := L.xmin ++ [(rootCell f.dimIn).a.map XR.fin],
            x := L.x ++ [(rootCell f.dimIn).c.map XR.fin] }).modify 0 (fun L => { L with f := L.f ++ [v], leaf := L.leaf ++ [true], samp := L.samp ++ [true] }) =
          st.tree.modify 0 (pushCell ((rootCell f.dimIn).c.map XR.fin) ((rootCell f.dimIn).a.map XR.fin) ((rootCell f.dimIn).b.map XR.fin) v true) := by
        rw [List.modify_modify_eq]; rfl
      refine ⟨⟨?_, ?_, hev, ?_, ?_⟩, rfl⟩
      · simp only [htree]
        exact levOk_modify hlev fun L _ hL => levOk_push hL (rootCell_good _) v true
      · intro hfr
        simp only [htree]
        have hsingle : ∀ h i, LeafAt (st.tree.modify 0 (pushCell ((rootCell f.dimIn).c.map XR.fin) ((rootCell f.dimIn).a.map XR.fin)
            ((rootCell f.dimIn).b.map XR.fin) v true)) h i → h = 0 ∧ i = 0 := by
          rintro h i ⟨L', hL', hi⟩
          rw [List.getElem?_modify] at hL'
          by_cases e : h = 0
          · subst e
            simp only [if_true, hL, hfresh hfr 0 L hL] at hL'
            simp [pushCell] at hL'
            subst hL'
            have := (List.getElem?_eq_some_iff.1 hi).1
            simp only [List.length_singleton] at this
            exact ⟨rfl, by omega⟩
          · have e' : ¬ 0 = h := fun e' => e e'.symm
            have hL'' : st.tree[h]? = some L' := by simpa [e'] using hL'
            rw [hfresh hfr h L' hL''] at hi
            simp at hi
        refine ⟨?_, ?_⟩
        · intro q hq
          have hget : (st.tree.modify 0 (pushCell ((rootCell f.dimIn).c.map XR.fin) ((rootCell f.dimIn).a.map XR.fin)
            ((rootCell f.dimIn).b.map XR.fin) v true))[0]? = some (pushCell ((rootCell f.dimIn).c.map XR.fin) ((rootCell f.dimIn).a.map XR.fin)
            ((rootCell f.dimIn).b.map XR.fin) v true ⟨[], [], [], [], [], []⟩) := by
              rw [List.getElem?_modify, hL, hfresh hfr 0 L hL]; rfl
          refine ⟨0, 0, rootCell f.dimIn, ⟨_, hget, rfl⟩, ⟨_, hget, rfl, rfl, rfl⟩, ?_⟩
          intro j hj
          simp only [rootCell, crd_replicate hj]
          exact hq.2 j hj
        · intro h i C h' i' C' l1 _ l2 _ hne
          obtain ⟨rfl, rfl⟩ := hsingle h i l1
          obtain ⟨rfl, rfl⟩ := hsingle h' i' l2
          exact absurd rfl hne
      · simp [hlen]
      · exact hN

end Limbo
