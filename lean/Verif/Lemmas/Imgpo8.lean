import Verif.Lemmas.Imgpo7
import Verif.Lemmas.CBo

/-! Steps (iii)-(v) of a pass of IMGPO, when they end normally. -/

namespace Limbo

variable {M : Type}

theorem imCompute_ok {P : ImParams XR M} {st st' : ImState XR M} (h : imCompute P st = .ok st') : ∃ m, st' = { st with base := { st.base with model := m } } := by
  unfold imCompute at h
  obtain ⟨b, e, rfl⟩ := imBase_ok h
  obtain ⟨m, -, rfl⟩ := withModel_ok e
  exact ⟨m, rfl⟩

theorem imChain_ok {P : ImParams XR M} {afun : List XR → XR} {xx : List XR} {b : XR} : ∀ {n : Nat} {xmin xmax : List XR} {st st' : ImState XR M},
    imChain P afun xx b n xmin xmax st = .ok st' → ∃ m z c, st' = { st with base := { st.base with model := m }, zmax := z, cnt2 := c } := by
  intro n
  induction n with
  | zero => intro xmin xmax st st' h; simp only [imChain, Res.ok.injEq] at h; exact ⟨st.base.model, st.zmax, st.cnt2, h.symm⟩
  | succ n ih =>
    intro xmin xmax st st' h
    unfold imChain at h
    cases hs : imSide xmin xmax with
    | none => rw [hs] at h; cases h
    | some q =>
      obtain ⟨s, mn, mx⟩ := q
      rw [hs] at h
      simp only at h
      by_cases hl : s < xx.length
      · rw [if_pos hl] at h
        obtain ⟨s1, e1, h⟩ := Res.andThen_ok h
        obtain ⟨m1, rfl⟩ := imCompute_ok e1
        obtain ⟨s2, e2, h⟩ := Res.andThen_ok h
        obtain ⟨m2, rfl⟩ := imCompute_ok e2
        split at h
        · simp only [Res.ok.injEq] at h
          exact ⟨_, _, _, h.symm⟩
        · obtain ⟨m, z, c, rfl⟩ := ih h
          exact ⟨_, _, _, rfl⟩
      · rw [if_neg hl] at h; cases h

/-- step (iii) for one level keeps everything, except that it may drop the selected leaf if a deeper level has one -/
theorem imStep3_ok {P : ImParams XR M} {afun : List XR → XR} {h : Nat} {st st' : ImState XR M} (hr : imStep3 P afun h st = .ok st') :
    st'.tree = st.tree ∧ st'.depth = st.depth ∧ st'.bmax = st.bmax ∧ Evals 0 st.base st'.base ∧
    (st'.imax = st.imax ∨ (st'.imax = st.imax.set h none ∧ ∃ h2, h < h2 ∧ ∃ j, st.imax[h2]? = some (some j))) := by
  unfold imStep3 at hr
  cases hi : st.imax[h]? with
  | none => rw [hi] at hr; cases hr
  | some o =>
    rw [hi] at hr
    cases o with
    | none => simp only [Res.ok.injEq] at hr; subst hr; exact ⟨rfl, rfl, rfl, Evals.refl _, Or.inl rfl⟩
    | some i =>
      simp only at hr
      cases hfd : (List.range' (h + 1) (min st.depth (h + min ((st.xi2 + 1) / 2) 4) - h)).find? fun h2 => (st.imax.getD h2 none).isSome with
      | none => rw [hfd] at hr; simp only [Res.ok.injEq] at hr; subst hr; exact ⟨rfl, rfl, rfl, Evals.refl _, Or.inl rfl⟩
      | some h2 =>
        rw [hfd] at hr
        simp only at hr
        have hm := List.mem_range'_1.1 (List.mem_of_find?_eq_some hfd)
        have hsome := List.find?_some hfd
        have hj : ∃ j, st.imax[h2]? = some (some j) := by
          rw [List.getD_eq_getElem?_getD] at hsome
          cases hq : st.imax[h2]? with
          | none => rw [hq] at hsome; simp at hsome
          | some q =>
            rw [hq] at hsome
            cases q with
            | none => simp at hsome
            | some j => exact ⟨j, rfl⟩
        split at hr
        · split at hr
          · obtain ⟨s1, e1, hr⟩ := Res.andThen_ok hr
            obtain ⟨m, z, c, rfl⟩ := imChain_ok e1
            split at hr
            · simp only [Res.ok.injEq] at hr
              subst hr
              exact ⟨rfl, rfl, rfl, ⟨[], by simp, by simp, by simp, by simp⟩, Or.inr ⟨rfl, h2, by omega, hj⟩⟩
            · simp only [Res.ok.injEq] at hr
              subst hr
              exact ⟨rfl, rfl, rfl, ⟨[], by simp, by simp, by simp, by simp⟩, Or.inl rfl⟩
          · cases hr
        · cases hr

/-- values and leaf flags of the cells of a level -/
def fkey (L : Lev XR) : List (List XR) × List Bool := (L.f, L.leaf)

theorem fkey_of_lkey {T T' : List (Lev XR)} (h : T'.map lkey = T.map lkey) : T'.map fkey = T.map fkey := by
  have e : ∀ S : List (Lev XR), S.map fkey = (S.map lkey).map fun p => (p.2.1, p.2.2) := by
    intro S; rw [List.map_map]; rfl
  rw [e, e, h]

theorem fkey_modify {T : List (Lev XR)} {h : Nat} {g : Lev XR → Lev XR} {g' : List (List XR) × List Bool → List (List XR) × List Bool}
    (hg : ∀ L, fkey (g L) = g' (fkey L)) : (T.modify h g).map fkey = (T.map fkey).modify h g' := by
  apply List.ext_getElem?
  intro k
  rw [List.getElem?_map, List.getElem?_modify, List.getElem?_modify, List.getElem?_map]
  cases T[k]? with
  | none => rfl
  | some L => by_cases e : h = k <;> simp [e, hg]

theorem fkey_modify_id {T : List (Lev XR)} {h : Nat} {g : Lev XR → Lev XR} (hg : ∀ L, fkey (g L) = fkey L) : (T.modify h g).map fkey = T.map fkey := by
  rw [fkey_modify (g' := id) hg, List.modify_id]

/-- `new` evaluations were made, and `bhi2` accounts for them -/
structure Obs (k : Nat) (new : List (List XR)) (st st' : ImState XR M) : Prop where
  obs : st'.base.observations = st.base.observations ++ new
  len : new.length ≤ k
  it : st'.base.currentIteration = st.base.currentIteration + new.length
  fin : ∀ v ∈ new, AllFinite v ∧ v ≠ []
  bhi2 : st'.bhi2 = st.bhi2 ∨ ∃ v ∈ new, st'.bhi2 = imFirst v
  imax : st'.imax = st.imax
  bmax : st'.bmax = st.bmax

theorem Obs.trans {k l : Nat} {n1 n2 : List (List XR)} {a b c : ImState XR M} (h : Obs k n1 a b) (h' : Obs l n2 b c) : Obs (k + l) (n1 ++ n2) a c := by
  refine ⟨by rw [h'.obs, h.obs, List.append_assoc], by rw [List.length_append]; have := h.len; have := h'.len; omega,
    by rw [h'.it, h.it, List.length_append]; push_cast; ring, ?_, ?_, h'.imax.trans h.imax, h'.bmax.trans h.bmax⟩
  · intro v hv
    rcases List.mem_append.1 hv with hv | hv
    · exact h.fin v hv
    · exact h'.fin v hv
  · rcases h'.bhi2 with e | ⟨v, hv, e⟩
    · rcases h.bhi2 with e' | ⟨v, hv, e'⟩
      · exact Or.inl (e.trans e')
      · exact Or.inr ⟨v, by simp [hv], e.trans e'⟩
    · exact Or.inr ⟨v, by simp [hv], e⟩

theorem imChild_ok {P : ImParams XR M} {f : StateFun XR M} {afun : List XR → XR} (hE : ∀ m n x, AllFinite (P.est m n x)) {h1 : Nat}
    {x xmin xmax : List XR} {st st' : ImState XR M} (hr : imChild P f afun h1 x xmin xmax st = .ok st') :
    ∃ v new, AllFinite v ∧ h1 < st.tree.length ∧ st'.tree.map fkey = (st.tree.map fkey).modify h1 (fun p => (p.1 ++ [v], p.2 ++ [true])) ∧
      st'.depth = st.depth ∧ Obs 1 new st st' := by
  unfold imChild at hr
  obtain ⟨s1, e1, hr⟩ := Res.andThen_ok hr
  obtain ⟨hl, rfl⟩ := imLev_ok e1
  obtain ⟨s2, e2, hr⟩ := Res.andThen_ok hr
  obtain ⟨m, rfl⟩ := imCompute_ok e2
  simp only at hr
  have hx : ∀ T : List (Lev XR), (T.modify h1 fun L => { L with x := L.x ++ [x] }).map fkey = T.map fkey := by
    intro T
    exact fkey_modify_id fun L => rfl
  split at hr
  · obtain ⟨-, rfl⟩ := imLev_ok hr
    refine ⟨P.est m st.cnt x, [], hE _ _ _, hl, ?_, rfl, ⟨by simp, by simp, by simp, by simp, Or.inl rfl, rfl, rfl⟩⟩
    simp only
    refine (fkey_modify (g' := fun p => (p.1 ++ [P.est m st.cnt x], p.2 ++ [true])) fun L => rfl).trans ?_
    rw [hx]
  · cases hc : f.call st.base.trace x with
    | threw => rw [hc] at hr; simp at hr
    | ret v =>
      rw [hc] at hr
      simp only at hr
      obtain ⟨s3, e3, hr⟩ := Res.andThen_ok hr
      obtain ⟨-, rfl⟩ := imLev_ok e3
      obtain ⟨s4, e4, hr⟩ := Res.andThen_ok hr
      obtain ⟨b, e5, rfl⟩ := imBase_ok e4
      obtain ⟨hv, rfl⟩ := addNewSample_ok' e5
      split at hr
      · cases hr
      · next hem =>
        obtain ⟨-, rfl⟩ := imLev_ok hr
        refine ⟨v, [v], hv, hl, ?_, rfl, ⟨rfl, by simp, by simp [imTick, BoState.push], ?_, ?_, rfl, rfl⟩⟩
        · simp only [imTick]
          refine (fkey_modify (g' := fun p => (p.1 ++ [v], p.2 ++ [true])) fun L => rfl).trans ?_
          refine congrArg (fun K => List.modify K h1 _) ?_
          refine Eq.trans (fkey_modify_id ?_) (hx _)
          intro L; rfl
        · simp only [List.mem_singleton, forall_eq]
          exact ⟨hv, by simpa using hem⟩
        · simp only [imTick, stdMax]
          split
          · exact Or.inr ⟨v, by simp, rfl⟩
          · exact Or.inl rfl

theorem modify_modify_same {β : Type} (l : List β) (h : Nat) (g g' : β → β) : (l.modify h g).modify h g' = l.modify h (g' ∘ g) := by
  apply List.ext_getElem?
  intro k
  simp only [List.getElem?_modify]
  cases l[k]? with
  | none => rfl
  | some L => by_cases e : h = k <;> simp [e]

/-- the effect of splitting cell `i` of level `h` on values and leaf flags -/
def splitK (K : List (List (List XR) × List Bool)) (h i : Nat) (v1 v2 v3 : List XR) : List (List (List XR) × List Bool) :=
  (K.modify h fun p => (p.1, p.2.set i false)).modify (h + 1) fun p => (p.1 ++ [v1, v2, v3], p.2 ++ [true, true, true])

theorem imExpand_ok {P : ImParams XR M} {f : StateFun XR M} {afun : List XR → XR} (hE : ∀ m n x, AllFinite (P.est m n x)) {h i : Nat}
    {st st' : ImState XR M} (hr : imExpand P f afun h i st = .ok st') :
    ∃ L v1 v2 v3 new, st.tree[h]? = some L ∧ L.f[i]? = some v3 ∧ AllFinite v1 ∧ AllFinite v2 ∧ h + 1 < st.tree.length ∧
      st'.tree.map fkey = splitK (st.tree.map fkey) h i v1 v2 v3 ∧ st'.depth = max st.depth (h + 1) ∧ Obs 2 new st st' := by
  unfold imExpand at hr
  cases hL : st.tree[h]? with
  | none => simp only [hL] at hr; cases hr
  | some L =>
    simp only [hL] at hr
    obtain ⟨s1, e1, hr⟩ := Res.andThen_ok hr
    obtain ⟨hl, rfl⟩ := imLev_ok e1
    split at hr
    · next x xmin xmax v e1 e2 e3 e4 =>
      cases hs : imSide xmin xmax with
      | none => rw [hs] at hr; cases hr
      | some q =>
        obtain ⟨s, mn, mx⟩ := q
        rw [hs] at hr
        simp only at hr
        split at hr
        · obtain ⟨s2, c1, hr⟩ := Res.andThen_ok hr
          obtain ⟨v1, n1, f1, l1, k1, d1, o1⟩ := imChild_ok hE c1
          obtain ⟨s3, c2, hr⟩ := Res.andThen_ok hr
          obtain ⟨v2, n2, f2, l2, k2, d2, o2⟩ := imChild_ok hE c2
          obtain ⟨s4, c3, hr⟩ := Res.andThen_ok hr
          obtain ⟨l3, rfl⟩ := imLev_ok c3
          split at hr
          · cases hr
          · simp only [Res.ok.injEq] at hr
            subst hr
            have o := o1.trans o2
            refine ⟨L, v1, v2, v, n1 ++ n2, rfl, e4, f1, f2, by simpa using l1, ?_, by rw [d2, d1],
              ⟨o.obs, o.len, o.it, o.fin, o.bhi2, o.imax, o.bmax⟩⟩
            simp only
            refine (fkey_modify (g' := fun p => (p.1 ++ [v], p.2 ++ [true])) fun L => rfl).trans ?_
            rw [k2, k1]
            have k0 : (st.tree.modify h fun L => { L with leaf := L.leaf.set i false }).map fkey = (st.tree.map fkey).modify h fun p => (p.1, p.2.set i false) :=
              fkey_modify fun L => rfl
            rw [k0, modify_modify_same, modify_modify_same]
            unfold splitK
            congr 1
            funext p
            simp
        · cases hr
    · cases hr

end Limbo
