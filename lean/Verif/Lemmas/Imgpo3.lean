import Verif.Lemmas.Imgpo2
import Mathlib.Data.List.Count

/-! Helper lemmas about IMGPO: the invariant of a run. -/

namespace Limbo

variable {M : Type}

/-- Postconditions, including undefined behaviour (`U`) and non-termination (`V`). -/
def Res.Post {σ : Type} (U V : Prop) (Q T : σ → Prop) : Res σ → Prop
  | .ok s => Q s
  | .throw _ s => T s
  | .ub => U
  | .diverge => V

theorem Res.Post.andThen {σ : Type} {U V : Prop} {Q Q' T : σ → Prop} {r : Res σ} {f : σ → Res σ} (h : r.Post U V Q T)
    (hf : ∀ s, Q s → (f s).Post U V Q' T) : (r.andThen f).Post U V Q' T := by
  cases r with
  | ok s => exact hf s h
  | throw e s => exact h
  | ub => exact h
  | diverge => exact h

theorem Res.Post.mono {σ : Type} {U V : Prop} {Q Q' T T' : σ → Prop} {r : Res σ} (h : r.Post U V Q T) (hq : ∀ s, Q s → Q' s)
    (ht : ∀ s, T s → T' s) : r.Post U V Q' T' := by
  cases r with
  | ok s => exact hq s h
  | throw e s => exact ht s h
  | ub => exact h
  | diverge => exact h

theorem imEach_post {U V : Prop} {J : Nat → ImState XR M → Prop} {T : ImState XR M → Prop} {body : Nat → ImState XR M → Res (ImState XR M)} :
    ∀ (n h : Nat), (∀ k st, h ≤ k → k < h + n → J k st → (body k st).Post U V (J (k + 1)) T) → ∀ st, J h st →
      (imEach body (List.range' h n) st).Post U V (J (h + n)) T := by
  intro n
  induction n with
  | zero => intro h _ st hJ; exact hJ
  | succ n ih =>
    intro h hb st hJ
    rw [List.range'_succ]
    refine (hb h st (le_refl _) (by omega) hJ).andThen fun s hs => ?_
    have := ih (h + 1) (fun k st h1 h2 => hb k st (by omega) (by omega)) s hs
    rw [show h + 1 + n = h + (n + 1) by omega] at this
    exact this

/-- what holds for the data of the optimizer; `pre` = the calls made before the root was evaluated -/
structure BPre (d : Nat) (fresh : Prop) (pre : List (List XR)) (b : BoState XR M) : Prop where
  calls : ∃ new : List (List XR), callPts b.trace = pre ++ new ∧ (∀ x ∈ new, ∃ p, UnitPoint d p ∧ x = p.map XR.fin) ∧
    b.currentIteration = new.length
  data : fresh → DataInv b
  len : b.samples.length = b.observations.length

/-- the same once there are data -/
structure BInv (d : Nat) (fresh : Prop) (pre : List (List XR)) (b : BoState XR M) : Prop extends BPre d fresh pre b where
  ne : b.observations ≠ []

/-- what holds when an exception leaves `optimize` -/
structure BThr (d : Nat) (fresh : Prop) (pre : List (List XR)) (b : BoState XR M) : Prop where
  calls : ∃ new : List (List XR), callPts b.trace = pre ++ new ∧ (∀ x ∈ new, ∃ p, UnitPoint d p ∧ x = p.map XR.fin)
  data : fresh → DataInv b

variable {d : Nat} {fresh U V : Prop} {pre : List (List XR)}

theorem BInv.thr {b : BoState XR M} (h : BInv d fresh pre b) : BThr d fresh pre b := by
  obtain ⟨new, h1, h2, -⟩ := h.calls
  exact ⟨⟨new, h1, h2⟩, h.data⟩

theorem BInv.model {b : BoState XR M} (h : BInv d fresh pre b) (m : M) : BInv d fresh pre { b with model := m } :=
  ⟨⟨h.calls, fun hf => (h.data hf).of_eq rfl rfl rfl, h.len⟩, h.ne⟩

/-- one evaluation -/
theorem bEval_threw {b : BoState XR M} (hb : BPre d fresh pre b) {p : List ℝ} (hp : UnitPoint d p) :
    BThr d fresh pre (b.push (.call (p.map XR.fin) .threw)) := by
  obtain ⟨new, h1, h2, h3⟩ := hb.calls
  refine ⟨⟨new ++ [p.map XR.fin], ?_, ?_⟩, ?_⟩
  · simp only [BoState.push]; rw [callPts_append, h1]; simp [callPts]
  · intro x hx
    rcases List.mem_append.1 hx with hx | hx
    · exact h2 x hx
    · exact ⟨p, hp, List.mem_singleton.1 hx⟩
  · intro hf
    have hd := hb.data hf
    refine ⟨hd.len, ?_, hd.fin⟩
    simp only [BoState.push]
    rw [expect_append]; exact hd.zip

theorem bEval_ret {b : BoState XR M} (hb : BPre d fresh pre b) {p : List ℝ} (hp : UnitPoint d p) (v w : List XR) (hw : fresh → w = v) :
    (addNewSample (p.map XR.fin) w (b.push (.call (p.map XR.fin) (.ret v)))).Post False False
      (fun b' => BInv d fresh pre { b' with currentIteration := b'.currentIteration + 1, totalIterations := b'.totalIterations + 1 })
      (BThr d fresh pre) := by
  obtain ⟨new, h1, h2, h3⟩ := hb.calls
  have hc : callPts (b.push (.call (p.map XR.fin) (.ret v))).trace = pre ++ (new ++ [p.map XR.fin]) := by
    simp only [BoState.push]; rw [callPts_append, h1]; simp [callPts]
  have hu : ∀ x ∈ new ++ [p.map XR.fin], ∃ p, UnitPoint d p ∧ x = p.map XR.fin := by
    intro x hx
    rcases List.mem_append.1 hx with hx | hx
    · exact h2 x hx
    · exact ⟨p, hp, List.mem_singleton.1 hx⟩
  have hd : fresh → (addNewSample (p.map XR.fin) w (b.push (.call (p.map XR.fin) (.ret v)))).All DataInv DataInv := by
    intro hf
    have hd := hb.data hf
    rw [hw hf]
    refine addNewSample_inv _ v _ hd.len hd.fin ?_
    simp only [BoState.push]
    rw [expect_append, ← hd.zip]
    rfl
  unfold addNewSample at hd ⊢
  by_cases hv : isNanOrInf w = true
  · rw [if_pos hv] at hd ⊢
    exact ⟨⟨_, hc, hu⟩, hd⟩
  · rw [if_neg hv] at hd ⊢
    refine ⟨⟨⟨_, hc, hu, ?_⟩, fun hf => (hd hf).of_eq rfl rfl rfl, ?_⟩, ?_⟩
    · simp only [BoState.push, List.length_append, List.length_singleton, h3]; push_cast; ring
    · simp [BoState.push, hb.len]
    · simp

theorem Cell.Good.unit {h : Nat} {C : Cell} (hg : C.Good d h) : UnitPoint d C.c := by
  refine ⟨hg.lc, fun j hj => ?_⟩
  have h1 := hg.inside j hj
  have h2 := hg.pos hj
  rw [hg.centre j hj]
  constructor <;> linarith

/-- the invariant during a pass: `D` = `h_max`, `N` = number of levels, levels from `k` on still have their chosen leaf -/
structure ImI (d : Nat) (fresh : Prop) (pre : List (List XR)) (N D e k : Nat) (st : ImState XR M) : Prop where
  lev : ∀ h L, st.tree[h]? = some L → LevOk d h L
  tiles : fresh → Tiles d st.tree
  b : BInv d fresh pre st.base
  len : st.tree.length = N
  lo : D ≤ st.depth
  hi : st.depth ≤ D + e
  lt : st.depth < N
  li : st.imax.length = D + 1
  lb : st.bmax.length = D + 1
  vi : ∀ h i, k ≤ h → st.imax[h]? = some (some i) → LeafAt st.tree h i

/-- state left by an exception -/
def ImT (d : Nat) (fresh : Prop) (pre : List (List XR)) (st : ImState XR M) : Prop := BThr d fresh pre st.base

variable {N D e k : Nat}

theorem imScan_spec (afun : List XR → XR) (L : Lev XR) : ∀ (is : List Nat) (b : XR) (r : Option (Nat × XR)),
    (∀ i ∈ is, i < L.leaf.length ∧ i < L.f.length) → (∀ i c, r = some (i, c) → L.leaf[i]? = some true) →
    ∃ p, imScan afun L is b r = some p ∧ ∀ i c, p.2 = some (i, c) → L.leaf[i]? = some true := by
  intro is
  induction is with
  | nil => intro b r _ hr; exact ⟨(b, r), rfl, hr⟩
  | cons i is ih =>
    intro b r hl hr
    have hi := hl i (by simp)
    have hl' : ∀ i ∈ is, i < L.leaf.length ∧ i < L.f.length := fun j hj => hl j (by simp [hj])
    unfold imScan
    cases hlf : L.leaf[i]? with
    | none => rw [List.getElem?_eq_none_iff] at hlf; omega
    | some t =>
      cases t with
      | false => exact ih b r hl' hr
      | true =>
        cases hf : L.f[i]? with
        | none => rw [List.getElem?_eq_none_iff] at hf; omega
        | some v =>
          simp only
          split
          · refine ih _ _ hl' ?_
            intro j c hj
            cases hj
            exact hlf
          · exact ih b r hl' hr

theorem count_set_lt {l : List Bool} {i : Nat} (h : l[i]? = some false) : (l.set i true).count false < l.count false := by
  have hi : i < l.length := (List.getElem?_eq_some_iff.1 h).1
  have he : l[i] = false := (List.getElem?_eq_some_iff.1 h).2
  have h0 : 0 < l.count false := List.count_pos_iff.2 (he ▸ List.getElem_mem hi)
  rw [List.count_set hi, he]
  simp only [beq_self_eq_true, if_true]
  rw [if_neg (by decide)]
  omega

theorem imVisit_post (f : StateFun XR M) (afun : List XR → XR) (h : Nat) (hh : h ≤ D) : ∀ (n : Nat) (st : ImState XR M), ImI d fresh pre N D e 0 st →
    (∀ L, st.tree[h]? = some L → L.samp.count false < n) → (imVisit f afun h n st).Post U V (ImI d fresh pre N D e 0) (ImT d fresh pre) := by
  intro n
  induction n with
  | zero =>
    intro st I hm
    have : h < st.tree.length := by rw [I.len]; have := I.lo; have := I.lt; omega
    exact absurd (hm _ (List.getElem?_eq_getElem this)) (by omega)
  | succ n ih =>
    intro st I hm
    have hlt : h < st.tree.length := by rw [I.len]; have := I.lo; have := I.lt; omega
    obtain ⟨L, hL⟩ : ∃ L, st.tree[h]? = some L := ⟨_, List.getElem?_eq_getElem hlt⟩
    have ok := I.lev h L hL
    obtain ⟨r, hr, hr2⟩ := imScan_spec afun L (List.range L.x.length) st.bhi none
      (by intro i hi; rw [List.mem_range] at hi; rw [ok.lleaf, ok.lf]; exact ⟨hi, hi⟩) (by intro i c hc; cases hc)
    -- the state after the scan
    have I2 : ImI d fresh pre N D e 0 (imScanned h r st) ∧ (imScanned h r st).tree = st.tree ∧ (imScanned h r st).base = st.base := by
      unfold imScanned
      split
      · exact ⟨⟨I.lev, I.tiles, I.b, I.len, I.lo, I.hi, I.lt, I.li, I.lb, I.vi⟩, rfl, rfl⟩
      · next i c hc =>
        refine ⟨⟨I.lev, I.tiles, I.b, I.len, I.lo, I.hi, I.lt, by simp [I.li], by simp [I.lb], ?_⟩, rfl, rfl⟩
        intro h' i' h0 hi'
        simp only at hi'
        by_cases e : h' = h
        · subst e
          rw [List.getElem?_set_self (by rw [I.li]; omega)] at hi'
          cases hi'
          exact ⟨L, hL, hr2 i c hc⟩
        · rw [List.getElem?_set_ne (fun e' => e e'.symm)] at hi'
          exact I.vi h' i' h0 hi'
    unfold imVisit
    simp only [hL, hr]
    obtain ⟨I2, ht, hbs⟩ := I2
    generalize imScanned h r st = s at I2 ht hbs ⊢
    have hlm : h < s.imax.length := by rw [I2.li]; omega
    rw [List.getElem?_eq_getElem hlm]
    cases him : s.imax[h] with
    | none => simp only; exact I2
    | some i =>
      obtain ⟨L', hL', hlf⟩ := I2.vi h i (by omega) (by rw [List.getElem?_eq_getElem hlm, him])
      rw [ht, hL] at hL'
      cases hL'
      have hi : i < L.x.length := by rw [← ok.lleaf]; exact (List.getElem?_eq_some_iff.1 hlf).1
      obtain ⟨C, c1, c2, c3, hg⟩ := ok.cells i hi
      have hsl : i < L.samp.length := by rw [ok.lsamp]; exact hi
      simp only
      cases hsa : L.samp[i]? with
      | none => rw [List.getElem?_eq_none_iff] at hsa; omega
      | some t =>
        cases t with
        | true => simp only; exact I2
        | false =>
          simp only [c3]
          have hb := I2.b
          cases hcall : f.call s.base.trace (C.c.map XR.fin) with
          | threw => exact bEval_threw hb.toBPre hg.unit
          | ret v =>
            have hev := bEval_ret hb.toBPre hg.unit v v fun _ => rfl
            simp only [imLev]
            rw [if_pos (by simp only [ht]; exact hlt)]
            simp only [Res.andThen, Res.bind, imBase]
            cases hadd : addNewSample (C.c.map XR.fin) v (s.base.push (.call (C.c.map XR.fin) (.ret v))) with
            | ub => rw [hadd] at hev; exact absurd hev (by simp [Res.Post])
            | diverge => rw [hadd] at hev; exact absurd hev (by simp [Res.Post])
            | throw ex b' => rw [hadd] at hev; exact hev
            | ok b' =>
              rw [hadd] at hev
              simp only [imTick]
              refine ih _ ?_ ?_
              · refine ⟨?_, ?_, hev, ?_, I2.lo, I2.hi, I2.lt, I2.li, I2.lb, ?_⟩
                · exact levOk_modify I2.lev fun L _ hL => levOk_samp hL i true
                · exact fun hf => tiles_samp (I2.tiles hf)
                · simp [I2.len]
                · intro h' i' h0 hi'
                  exact leafAt_samp.2 (I2.vi h' i' h0 hi')
              · intro L'' hL''
                simp only [ht, List.getElem?_modify, hL] at hL''
                simp at hL''
                rw [← hL'']
                have := count_set_lt hsa
                have := hm L hL
                simp only
                omega

theorem imStep12_post (f : StateFun XR M) (afun : List XR → XR) (h : Nat) (hh : h ≤ D) (st : ImState XR M) (I : ImI d fresh pre N D e 0 st) :
    (imStep12 f afun h st).Post U V (ImI d fresh pre N D e 0) (ImT d fresh pre) := by
  unfold imStep12
  refine imVisit_post f afun h hh _ st I ?_
  intro L hL
  rw [hL]
  have := (I.lev h L hL).lsamp
  have := List.count_le_length (a := false) (l := L.samp)
  simp only [Option.elim]
  omega

/-- `compute` on paired, non-empty data is defined, unless `U`; and returns, unless `V` -/
structure ComputeOk (P : ImParams XR M) (U V : Prop) : Prop where
  ub : ∀ xs ys m, xs.length = ys.length → ys ≠ [] → P.bo.ops.compute xs ys m = .ub → U
  div : ∀ xs ys m, xs.length = ys.length → ys ≠ [] → P.bo.ops.compute xs ys m = .diverge → V

theorem imCompute_post {P : ImParams XR M} (hP : ComputeOk P U V) (st : ImState XR M) (hb : BInv d fresh pre st.base)
    {Q : ImState XR M → Prop} (hq : ∀ m, Q { st with base := { st.base with model := m } }) :
    (imCompute P st).Post U V Q (ImT d fresh pre) := by
  unfold imCompute imBase withModel
  cases hc : P.bo.ops.compute st.base.samples st.base.observations st.base.model with
  | ok m => exact hq m
  | throw ex m => exact (hb.model m).thr
  | ub => exact hP.ub _ _ _ hb.len hb.ne hc
  | diverge => exact hP.div _ _ _ hb.len hb.ne hc

theorem imChain_post {P : ImParams XR M} (hP : ComputeOk P U V) (hd : 0 < d) (afun : List XR → XR) (xx : List XR) (hx : xx.length = d) (b : XR) :
    ∀ (n h : Nat) (C : Cell) (_ : C.Good d h) (st : ImState XR M), ImI d fresh pre N D e k st →
      (imChain P afun xx b n (C.a.map XR.fin) (C.b.map XR.fin) st).Post U V (ImI d fresh pre N D e k) (ImT d fresh pre) := by
  intro n
  induction n with
  | zero => intro h C _ st I; exact I
  | succ n ih =>
    intro h C hg st I
    obtain ⟨s, hs, h1, hmax⟩ := Cell.side_fin hg hd
    unfold imChain
    simp only [h1]
    rw [if_pos (by rw [hx]; exact hs)]
    refine (imCompute_post hP st I.b (Q := ImI d fresh pre N D e k) fun m =>
      ⟨I.lev, I.tiles, I.b.model m, I.len, I.lo, I.hi, I.lt, I.li, I.lb, I.vi⟩).andThen fun st1 I1 => ?_
    refine Res.Post.andThen (Q := ImI d fresh pre N D e k) ?_ fun st2 I2 => ?_
    · refine imCompute_post hP _ ?_ ?_
      · exact I1.b
      · exact fun m => ⟨I1.lev, I1.tiles, I1.b.model m, I1.len, I1.lo, I1.hi, I1.lt, I1.li, I1.lb, I1.vi⟩
    split
    · exact ⟨I2.lev, I2.tiles, I2.b, I2.len, I2.lo, I2.hi, I2.lt, I2.li, I2.lb, I2.vi⟩
    · rw [imL_fin, map_fin_set]
      exact ih (h + 1) (C.left s) (Cell.good_left hg hs hmax) _ ⟨I2.lev, I2.tiles, I2.b, I2.len, I2.lo, I2.hi, I2.lt, I2.li, I2.lb, I2.vi⟩

theorem imStep3_post {P : ImParams XR M} (hP : ComputeOk P U V) (hd : 0 < d) (afun : List XR → XR) (h : Nat) (hh : h ≤ D) (st : ImState XR M)
    (I : ImI d fresh pre N D 0 0 st) : (imStep3 P afun h st).Post U V (ImI d fresh pre N D 0 0) (ImT d fresh pre) := by
  unfold imStep3
  have hlm : h < st.imax.length := by rw [I.li]; omega
  rw [List.getElem?_eq_getElem hlm]
  cases him : st.imax[h] with
  | none => simp only; exact I
  | some i =>
    obtain ⟨L, hL, hlf⟩ := I.vi h i (by omega) (by rw [List.getElem?_eq_getElem hlm, him])
    have ok := I.lev h L hL
    have hi : i < L.x.length := by rw [← ok.lleaf]; exact (List.getElem?_eq_some_iff.1 hlf).1
    obtain ⟨C, c1, c2, c3, hg⟩ := ok.cells i hi
    simp only
    split
    · exact I
    · next h2 hfind =>
      have hmem := List.mem_of_find?_eq_some hfind
      rw [List.mem_range'_1] at hmem
      have hh2 : h2 < st.bmax.length := by
        rw [I.lb]; have := I.hi; omega
      rw [hL, List.getElem?_eq_getElem hh2]
      simp only [c1, c2, c3]
      refine Res.Post.andThen (Q := ImI d fresh pre N D 0 0) ?_ fun s1 I1 => ?_
      · refine imChain_post hP hd afun (C.c.map XR.fin) (by rw [List.length_map, hg.lc]) _ _ h C hg _ ?_
        exact ⟨I.lev, I.tiles, I.b, I.len, I.lo, I.hi, I.lt, I.li, I.lb, I.vi⟩
      split
      · refine ⟨I1.lev, I1.tiles, I1.b, I1.len, I1.lo, I1.hi, I1.lt, by simp [I1.li], I1.lb, ?_⟩
        intro h' i' h0 hi'
        simp only at hi'
        by_cases e : h' = h
        · subst e
          rw [List.getElem?_set_self (by rw [I1.li]; omega)] at hi'
          cases hi'
        · rw [List.getElem?_set_ne (fun e' => e e'.symm)] at hi'
          exact I1.vi h' i' h0 hi'
      · exact I1

/-- what `imChild` does -/
theorem imChild_post {P : ImParams XR M} (hP : ComputeOk P U V) {f : StateFun XR M} (hf : ∀ tr x, f.call tr x = .ret [] → U) (afun : List XR → XR)
    (h1 : Nat) (p : List ℝ) (hp : UnitPoint d p) (xmin xmax : List XR) (st : ImState XR M) (hlev : h1 < st.tree.length)
    (hb : BInv d fresh pre st.base) :
    (imChild P f afun h1 (p.map XR.fin) xmin xmax st).Post U V
      (fun st' => BInv d fresh pre st'.base ∧ (∃ v b, st'.tree = st.tree.modify h1 (pushCell (p.map XR.fin) xmin xmax v b)) ∧
        st'.depth = st.depth ∧ st'.imax = st.imax ∧ st'.bmax = st.bmax) (ImT d fresh pre) := by
  unfold imChild
  simp only [imLev]
  rw [if_pos hlev]
  simp only [Res.andThen, Res.bind]
  have hc := imCompute_post (fresh := fresh) (pre := pre) (d := d) hP
    { st with tree := st.tree.modify h1 fun L => { L with x := L.x ++ [p.map XR.fin] } } hb
    (Q := fun s => BInv d fresh pre s.base ∧ s.tree = st.tree.modify h1 (fun L => { L with x := L.x ++ [p.map XR.fin] }) ∧
      s.depth = st.depth ∧ s.imax = st.imax ∧ s.bmax = st.bmax) (fun m => ⟨hb.model m, rfl, rfl, rfl, rfl⟩)
  refine hc.andThen fun s hs => ?_
  obtain ⟨b1, t1, e1, e2, e3⟩ := hs
  split
  · rw [if_pos (by rw [t1]; simpa using hlev)]
    refine ⟨b1, ⟨P.est s.base.model s.cnt (p.map XR.fin), false, ?_⟩, e1, e2, e3⟩
    simp only [t1]
    rw [List.modify_modify_eq]
    rfl
  · cases hcall : f.call s.base.trace (p.map XR.fin) with
    | threw => exact bEval_threw b1.toBPre hp
    | ret v =>
      have hev := bEval_ret b1.toBPre hp v v fun _ => rfl
      simp only
      rw [if_pos (by rw [t1]; simpa using hlev)]
      simp only [imBase]
      cases hadd : addNewSample (p.map XR.fin) v (s.base.push (.call (p.map XR.fin) (.ret v))) with
      | ub => rw [hadd] at hev; exact absurd hev (by simp [Res.Post])
      | diverge => rw [hadd] at hev; exact absurd hev (by simp [Res.Post])
      | throw ex b' => rw [hadd] at hev; exact hev
      | ok b' =>
        rw [hadd] at hev
        simp only [Res.bind]
        by_cases hv : v.isEmpty = true
        · rw [if_pos hv]
          rw [List.isEmpty_iff] at hv
          subst hv
          exact hf _ _ hcall
        · rw [if_neg hv]
          simp only [imTick]
          simp only [List.length_modify]
          rw [if_pos (show h1 < s.tree.length by rw [t1]; simpa using hlev)]
          refine ⟨hev, ⟨v, true, ?_⟩, e1, e2, e3⟩
          simp only [t1]
          rw [List.modify_modify_eq, List.modify_modify_eq]
          rfl

end Limbo
