import Verif.Lemmas.Imgpo6

/-! The steps of one pass of IMGPO, when they end normally. -/

namespace Limbo

variable {M : Type}

/-- what steps (i)-(ii) do for one level -/
structure Visited (afun : List XR → XR) (h : Nat) (st st' : ImState XR M) : Prop where
  key : st'.tree.map lkey = st.tree.map lkey
  dep : st'.depth = st.depth
  ev : Evals 1 st.base st'.base
  scan : ∃ L, st.tree[h]? = some L ∧ (∀ i < L.x.length, ∀ v, L.leaf[i]? = some true → L.f[i]? = some v → lt st'.bhi (afun v) = false) ∧
    ((st'.bhi = st.bhi ∧ st'.imax = st.imax ∧ st'.bmax = st.bmax) ∨
     (lt st.bhi st'.bhi = true ∧ ∃ i, LeafWith afun st.tree h i st'.bhi ∧ st'.imax = st.imax.set h (some i) ∧ st'.bmax = st.bmax.set h st'.bhi))

theorem imVisit_again {f : StateFun XR M} {afun : List XR → XR} {h n i : Nat} {st st' : ImState XR M} {L : Lev XR} (hL : st.tree[h]? = some L)
    (hall : ∀ i < L.x.length, ∀ v, L.leaf[i]? = some true → L.f[i]? = some v → lt st.bhi (afun v) = false)
    (hi : st.imax[h]? = some (some i)) (hs : L.samp[i]? = some true) (hr : imVisit f afun h n st = .ok st') : st' = st := by
  cases n with
  | zero => simp [imVisit] at hr
  | succ n =>
    simp only [imVisit, hL] at hr
    cases hsc : imScan afun L (List.range L.x.length) st.bhi none with
    | none => rw [hsc] at hr; cases hr
    | some p =>
      have := imScan_again afun L (by simpa using hall) hsc
      subst this
      rw [hsc] at hr
      simp only [imScanned, hi, hs, Res.ok.injEq] at hr
      exact hr.symm

theorem imVisit_ok {f : StateFun XR M} {afun : List XR → XR} {h n : Nat} {st st' : ImState XR M} (hi : st.imax[h]? = some none)
    (hr : imVisit f afun h n st = .ok st') : Visited afun h st st' := by
  cases n with
  | zero => simp [imVisit] at hr
  | succ n =>
    cases hL : st.tree[h]? with
    | none => simp [imVisit, hL] at hr
    | some L =>
    simp only [imVisit, hL] at hr
    cases hsc : imScan afun L (List.range L.x.length) st.bhi none with
    | none => rw [hsc] at hr; cases hr
    | some p =>
      obtain ⟨h1, h2⟩ := imScan_best afun L _ _ _ _ hsc
      rw [hsc] at hr
      have hhl : h < st.imax.length := (List.getElem?_eq_some_iff.1 hi).1
      rcases h2 with h2 | ⟨h2, i, v, h3, h4, h5, h6⟩
      · subst h2
        simp only [imScanned, hi, Res.ok.injEq] at hr
        subst hr
        exact ⟨rfl, rfl, (Evals.refl _).mono (by omega), L, hL, by simpa using h1, Or.inl ⟨rfl, rfl, rfl⟩⟩
      · have hlw : LeafWith afun st.tree h i p.1 := ⟨L, v, hL, h4, h5, h6⟩
        have hset : (st.imax.set h (some i))[h]? = some (some i) := by rw [List.getElem?_set_self hhl]
        simp only [imScanned, h3, hset] at hr
        cases hsm : L.samp[i]? with
        | none => rw [hsm] at hr; simp at hr
        | some t =>
          rw [hsm] at hr
          cases t with
          | true =>
            simp only [Res.ok.injEq] at hr
            subst hr
            exact ⟨rfl, rfl, (Evals.refl _).mono (by omega), L, hL, by simpa using h1, Or.inr ⟨h2, i, hlw, rfl, rfl⟩⟩
          | false =>
            cases hx : L.x[i]? with
            | none => rw [hx] at hr; simp at hr
            | some x =>
              rw [hx] at hr
              simp only at hr
              cases hc : f.call st.base.trace x with
              | threw => rw [hc] at hr; simp at hr
              | ret w =>
                rw [hc] at hr
                simp only at hr
                obtain ⟨s1, e1, hr⟩ := Res.andThen_ok hr
                obtain ⟨e1l, e1⟩ := imLev_ok e1
                obtain ⟨s2, e2, hr⟩ := Res.andThen_ok hr
                obtain ⟨b, e2, e3⟩ := imBase_ok e2
                obtain ⟨hw, e2⟩ := addNewSample_ok' e2
                have hT : s1.tree = st.tree.modify h fun L => { L with samp := L.samp.set i true } := by rw [e1]
                have hkey : s2.tree.map lkey = st.tree.map lkey := by rw [e3]; simp only; rw [hT, lkey_modify_samp]
                have hL2 : (imTick s2).tree[h]? = some { L with samp := L.samp.set i true } := by
                  rw [e3]; simp only [imTick]; rw [hT, List.getElem?_modify, hL]; simp
                have := imVisit_again (st := imTick s2) (i := i) hL2 (by rw [e3, e1]; simpa [imTick] using h1) (by rw [e3, e1]; exact hset)
                  (by simp only; rw [List.getElem?_set_self (List.getElem?_eq_some_iff.1 hsm).1]) hr
                subst this
                refine ⟨by simpa [imTick] using hkey, by rw [e3, e1]; rfl, ⟨[w], ?_, by simp, ?_, by simpa using hw⟩, L, hL, ?_, Or.inr ?_⟩
                · rw [e3, e2, e1]; rfl
                · rw [e3, e2, e1]; simp [imTick, BoState.push]
                · rw [e3, e1]; simpa [imTick] using h1
                · rw [e3, e1]; exact ⟨h2, i, hlw, rfl, rfl⟩

/-- the invariant of a sequence of steps that end normally -/
theorem imEach_ok {body : Nat → ImState XR M → Res (ImState XR M)} {J : Nat → ImState XR M → Prop} {D : Nat}
    (hb : ∀ k < D, ∀ s s', J k s → body k s = .ok s' → J (k + 1) s') {s s' : ImState XR M} (h0 : J 0 s)
    (h : imEach body (List.range D) s = .ok s') : J D s' := by
  have : ∀ (m k : Nat) (s : ImState XR M), k + m = D → J k s → imEach body (List.range' k m) s = .ok s' → J D s' := by
    intro m
    induction m with
    | zero => intro k s hk hJ h; simp only [List.range'_zero, imEach, Res.ok.injEq] at h; subst h; rw [← hk]; exact hJ
    | succ m ih =>
      intro k s hk hJ h
      rw [List.range'_succ] at h
      obtain ⟨s1, e1, e2⟩ := Res.andThen_ok h
      exact ih (k + 1) s1 (by omega) (hb k (by omega) s s1 hJ e1) e2
  refine this D 0 s (by omega) h0 ?_
  rw [← List.range_eq_range']; exact h

/-- state after steps (i)-(ii) for the levels below `k`, when the highest value is `b` and `h` is the first level with a leaf of that value -/
structure Sel (afun : List XR → XR) (T : List (Lev XR)) (D h : Nat) (b : XR) (base0 : BoState XR M) (k : Nat) (st : ImState XR M) : Prop where
  key : st.tree.map lkey = T.map lkey
  dep : st.depth = D
  lim : st.imax.length = D + 1
  lbm : st.bmax.length = D + 1
  ev : Evals k base0 st.base
  rest : ∀ k', k ≤ k' → k' ≤ D → st.imax[k']? = some none
  pre : k ≤ h → lt st.bhi b = true
  post : h < k → le b st.bhi = true ∧ ∃ i, LeafWith afun T h i st.bhi ∧ st.imax[h]? = some (some i) ∧ st.bmax[h]? = some st.bhi ∧
    ∀ k', h < k' → k' ≤ D → st.imax[k']? = some none
  leaf : ∀ k' i, st.imax[k']? = some (some i) → ∃ c, LeafWith afun T k' i c ∧ st.bmax[k']? = some c

theorem imStep12_sel {f : StateFun XR M} {afun : List XR → XR} {T : List (Lev XR)} {D h : Nat} {b : XR} {base0 : BoState XR M} (hh : h ≤ D)
    (hlen : ∀ (k : Nat) (L : Lev XR), T[k]? = some L → L.leaf.length = L.x.length)
    (hmax : ∀ k i c, LeafWith afun T k i c → le c b = true) (hfst : ∀ k i c, LeafWith afun T k i c → k < h → lt c b = true)
    (hex : ∃ i, LeafWith afun T h i b) {k : Nat} (hk : k < D + 1) {st st' : ImState XR M}
    (S : Sel afun T D h b base0 k st) (hr : imStep12 f afun k st = .ok st') : Sel afun T D h b base0 (k + 1) st' := by
  have V := imVisit_ok (S.rest k le_rfl (by omega)) hr
  obtain ⟨L, hL, hall, hcase⟩ := V.scan
  have hev : Evals (k + 1) base0 st'.base := S.ev.trans V.ev
  have hkey : st'.tree.map lkey = T.map lkey := by rw [V.key, S.key]
  have hcng : ∀ {k' i c}, LeafWith afun st.tree k' i c → LeafWith afun T k' i c := fun hl => hl.congr S.key
  have hbb : isNaN b = false := by
    obtain ⟨i, hi⟩ := hex
    exact (LawfulCmp.not_nan_of_le (hmax _ _ _ hi)).2
  rcases hcase with ⟨e1, e2, e3⟩ | ⟨e1, i, e2, e3, e4⟩
  · refine ⟨hkey, V.dep.trans S.dep, by rw [e2]; exact S.lim, by rw [e3]; exact S.lbm, hev, ?_, ?_, ?_, ?_⟩
    · intro k' h1 h2; rw [e2]; exact S.rest k' (by omega) h2
    · intro h1; rw [e1]; exact S.pre (by omega)
    · intro h1
      by_cases hhk : h < k
      · rw [e1, e2, e3]; exact S.post hhk
      · -- level `h` has a better leaf
        exfalso
        have hkh : h = k := by omega
        subst hkh
        obtain ⟨i, LT, v, g1, g2, g3, g4⟩ := hex
        obtain ⟨LT', g5, g6⟩ := lkey_get S.key hL
        rw [g1] at g5; cases g5
        simp only [lkey, Prod.mk.injEq] at g6
        have hil : i < L.x.length := by
          rw [g6.1, ← hlen h LT g1]; exact (List.getElem?_eq_some_iff.1 g2).1
        have := hall i hil v (by rw [g6.2.2]; exact g2) (by rw [g6.2.1]; exact g3)
        rw [g4, e1, S.pre le_rfl] at this
        cases this
    · intro k' i h1; rw [e2] at h1; rw [e3]; exact S.leaf k' i h1
  · have hTl := hcng e2
    have hget : ∀ k', k' ≠ k → st'.imax[k']? = st.imax[k']? := fun k' hne => by rw [e3, List.getElem?_set_ne (by omega)]
    have hself : st'.imax[k]? = some (some i) := by rw [e3, List.getElem?_set_self (by rw [S.lim]; exact hk)]
    have hbself : st'.bmax[k]? = some st'.bhi := by rw [e4, List.getElem?_set_self (by rw [S.lbm]; exact hk)]
    refine ⟨hkey, V.dep.trans S.dep, by rw [e3, List.length_set]; exact S.lim, by rw [e4, List.length_set]; exact S.lbm, hev, ?_, ?_, ?_, ?_⟩
    · intro k' h1 h2; rw [hget k' (by omega)]; exact S.rest k' (by omega) h2
    · intro h1; exact hfst _ _ _ hTl (by omega)
    · intro h1
      by_cases hhk : h < k
      · exfalso
        have := LawfulCmp.lt_of_le_of_lt (S.post hhk).1 e1
        have h3 := LawfulCmp.lt_of_lt_of_le this (hmax _ _ _ hTl)
        rw [LawfulCmp.lt_irrefl'] at h3; cases h3
      · have hkh : h = k := by omega
        subst hkh
        refine ⟨?_, i, hTl, hself, hbself, ?_⟩
        · obtain ⟨j, LT, v, g1, g2, g3, g4⟩ := hex
          obtain ⟨LT', g5, g6⟩ := lkey_get S.key hL
          rw [g1] at g5; cases g5
          simp only [lkey, Prod.mk.injEq] at g6
          have hil : j < L.x.length := by
            rw [g6.1, ← hlen h LT g1]; exact (List.getElem?_eq_some_iff.1 g2).1
          have := hall j hil v (by rw [g6.2.2]; exact g2) (by rw [g6.2.1]; exact g3)
          rw [g4] at this
          exact LawfulCmp.le_of_not_lt (LawfulCmp.not_nan_of_lt e1).2 hbb this
        · intro k' h2 h3; rw [hget k' (by omega)]; exact S.rest k' (by omega) h3
    · intro k' j h1
      by_cases hkk : k' = k
      · subst hkk; rw [hself] at h1; cases h1; exact ⟨_, hTl, hbself⟩
      · rw [hget k' hkk] at h1
        obtain ⟨c, c1, c2⟩ := S.leaf k' j h1
        exact ⟨c, c1, by rw [e4, List.getElem?_set_ne (by omega)]; exact c2⟩

end Limbo
