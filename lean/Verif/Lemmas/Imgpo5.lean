import Verif.Lemmas.Imgpo4

/-! Helper lemmas about IMGPO: `optimize`. -/

namespace Limbo

variable {M : Type} {U V : Prop}

theorem evalAll_post {f : StateFun XR M} : ∀ (pts : List (List XR)) (st : BoState XR M), st.samples.length = st.observations.length →
    (evalAll f pts st).Post False False (fun b => callPts b.trace = callPts st.trace ++ pts ∧ b.currentIteration = st.currentIteration ∧
      b.totalIterations = st.totalIterations ∧ b.samples.length = b.observations.length) (fun _ => True) := by
  intro pts
  induction pts with
  | nil => intro st h; exact ⟨by simp, rfl, rfl, h⟩
  | cons x xs ih =>
    intro st h
    unfold evalAll
    refine Res.Post.andThen (Q := fun b => callPts b.trace = callPts st.trace ++ [x] ∧ b.currentIteration = st.currentIteration ∧
      b.totalIterations = st.totalIterations ∧ b.samples.length = b.observations.length) ?_ ?_
    · unfold evalAndAdd
      simp only
      cases f.call st.trace x with
      | threw => trivial
      | ret v =>
        simp only [addNewSample]
        split
        · trivial
        · exact ⟨by simp [BoState.push, callPts_append, callPts], rfl, rfl, by simp [BoState.push, h]⟩
    · rintro b ⟨h1, h2, h3, h4⟩
      refine (ih b h4).mono ?_ (fun _ h => h)
      rintro b' ⟨g1, g2, g3, g4⟩
      exact ⟨by rw [g1, h1]; simp, by rw [g2, h2], by rw [g3, h3], g4⟩

/-- `_init` -/
theorem boInit_post {P : BoParams XR M} {f : StateFun XR M} {reset : Bool} {st : BoState XR M} (hi : ∀ b n, P.initPts b n = none → U)
    (hlen : st.samples.length = st.observations.length) (hdat : reset = false → st.totalIterations = 0 → DataInv st) :
    (boInit P f reset (st.push (.start reset))).Post U V (fun b => (∃ inits, callPts b.trace = callPts st.trace ++ inits ∧
        ((reset = true ∨ st.totalIterations = 0) → ∃ b0, P.initPts b0 f.dimIn = some inits) ∧
        (¬ (reset = true ∨ st.totalIterations = 0) → inits = [])) ∧ b.currentIteration = 0 ∧
        (b.totalIterations = 0 ↔ (reset = true ∨ st.totalIterations = 0)) ∧ b.samples.length = b.observations.length ∧
        ((reset = true ∨ st.totalIterations = 0) → DataInv b)) (fun b => (reset = true ∨ st.totalIterations = 0) → DataInv b) := by
  have hct : callPts (st.push (.start reset)).trace = callPts st.trace := by simp [BoState.push, callPts_append, callPts]
  -- the general form of the branch that runs the initialiser
  have key : ∀ b0 : BoState XR M, DataInv b0 → callPts b0.trace = callPts st.trace → b0.currentIteration = 0 → b0.totalIterations = 0 →
      (reset = true ∨ st.totalIterations = 0) →
      (match P.initPts b0 f.dimIn with
        | some pts => evalAll f pts b0
        | none => (.ub : Res (BoState XR M))).Post U V (fun b : BoState XR M => (∃ inits, callPts b.trace = callPts st.trace ++ inits ∧
        ((reset = true ∨ st.totalIterations = 0) → ∃ b0, P.initPts b0 f.dimIn = some inits) ∧
        (¬ (reset = true ∨ st.totalIterations = 0) → inits = [])) ∧ b.currentIteration = 0 ∧
        (b.totalIterations = 0 ↔ (reset = true ∨ st.totalIterations = 0)) ∧ b.samples.length = b.observations.length ∧
        ((reset = true ∨ st.totalIterations = 0) → DataInv b)) (fun b => (reset = true ∨ st.totalIterations = 0) → DataInv b) := by
    intro b0 hb0 h1 h2 h3 hF
    cases hp : P.initPts b0 f.dimIn with
    | none => exact hi _ _ hp
    | some pts =>
      have a1 := evalAll_post (f := f) pts b0 hb0.len
      have a2 := evalAll_inv f pts b0 hb0
      simp only
      cases he : evalAll f pts b0 with
      | ok b =>
        rw [he] at a1 a2
        obtain ⟨c1, c2, c3, c4⟩ := a1
        exact ⟨⟨pts, by rw [c1, h1], fun _ => ⟨b0, hp⟩, fun hn => absurd hF hn⟩, by rw [c2, h2], ⟨fun _ => hF, fun _ => by rw [c3, h3]⟩, c4, fun _ => a2⟩
      | throw e b => rw [he] at a2; exact fun _ => a2
      | ub => rw [he] at a1; exact absurd a1 (by simp [Res.Post])
      | diverge => rw [he] at a1; exact absurd a1 (by simp [Res.Post])
  by_cases hr : reset = true
  · have e : boInit P f reset (st.push (.start reset)) =
        (match P.initPts { st.push (.start reset) with currentIteration := 0, totalIterations := 0, samples := [], observations := [] } f.dimIn with
          | some pts => evalAll f pts { st.push (.start reset) with currentIteration := 0, totalIterations := 0, samples := [], observations := [] }
          | none => .ub) := by
      unfold boInit; simp [hr]; generalize P.initPts _ _ = o; cases o <;> rfl
    rw [e]
    refine key _ ⟨rfl, ?_, by simp⟩ hct rfl rfl (Or.inl hr)
    simp only [BoState.push]; rw [expect_append, hr]; rfl
  · have hr' : reset = false := by simpa using hr
    by_cases h0 : st.totalIterations = 0
    · have e : boInit P f reset (st.push (.start reset)) =
          (match P.initPts { st.push (.start reset) with currentIteration := 0 } f.dimIn with
            | some pts => evalAll f pts { st.push (.start reset) with currentIteration := 0 }
            | none => .ub) := by
        unfold boInit; simp [hr', BoState.push, h0]; generalize P.initPts _ _ = o; cases o <;> rfl
      rw [e]
      refine key _ ?_ hct rfl h0 (Or.inr h0)
      have h := hdat hr' h0
      refine ⟨h.len, ?_, h.fin⟩
      simp only [BoState.push]; rw [expect_append, hr']; exact h.zip
    · have e : boInit P f reset (st.push (.start reset)) = .ok { st.push (.start reset) with currentIteration := 0 } := by
        unfold boInit; simp [hr', BoState.push, h0]
      rw [e]
      have hnF : ¬ (reset = true ∨ st.totalIterations = 0) := by simp [hr', h0]
      refine ⟨⟨[], by simpa using hct, fun hF => absurd hF hnF, fun _ => rfl⟩, rfl, ?_, hlen, fun hF => absurd hF hnF⟩
      exact ⟨fun h => absurd h h0, fun hF => absurd hF hnF⟩

/-- what a call of `optimize` leaves -/
structure ImDone (P : ImParams XR M) (f : StateFun XR M) (afun : List XR → XR) (F : Prop) (N : Nat) (st st' : ImState XR M) : Prop where
  calls : ∃ inits new : List (List XR), callPts st'.base.trace = callPts st.base.trace ++ inits ++ new ∧
    (F → ∃ b, P.bo.initPts b f.dimIn = some inits) ∧ (¬ F → inits = []) ∧
    (∀ x ∈ new, ∃ p, UnitPoint f.dimIn p ∧ x = p.map XR.fin) ∧ st'.base.currentIteration = new.length
  lev : ∀ h L, st'.tree[h]? = some L → LevOk f.dimIn h L
  tiles : F → Tiles f.dimIn st'.tree
  data : F → DataInv st'.base
  len : st'.base.samples.length = st'.base.observations.length
  treeLen : st'.tree.length = N
  stop : ∃ b b', boStop P.bo afun b = some (true, b') ∧ b'.currentIteration = st'.base.currentIteration

theorem imOptimize_post {P : ImParams XR M} {f : StateFun XR M} {afun : List XR → XR} {reset : Bool} {fuel N : Nat} {st : ImState XR M}
    (hd : 0 < f.dimIn) (hP : ComputeOk P U True) (hf : ∀ tr x, f.call tr x = .ret [] → U) (hs : ∀ b, boStop P.bo afun b = none → U)
    (hi : ∀ b n, P.bo.initPts b n = none → U) (hh : ∀ m, P.bo.ops.optHp m = .ub → U)
    (hlen : st.base.samples.length = st.base.observations.length)
    (hdat : reset = false → st.base.totalIterations = 0 → DataInv st.base)
    (hN1 : (reset = true ∨ st.base.totalIterations = 0) → N = 1000)
    (htree : ¬ (reset = true ∨ st.base.totalIterations = 0) → N = st.tree.length ∧ 0 < N ∧ ∀ h L, st.tree[h]? = some L → LevOk f.dimIn h L)
    (hfuel : U ∨ fuel < N) :
    (imOptimize P f afun reset fuel st).Post U True (ImDone P f afun (reset = true ∨ st.base.totalIterations = 0) N st)
      (fun st' => (reset = true ∨ st.base.totalIterations = 0) → DataInv st'.base) := by
  set F : Prop := reset = true ∨ st.base.totalIterations = 0 with hF
  unfold imOptimize
  simp only [imBase]
  have h0 := boInit_post (U := U) (V := True) (P := P.bo) (f := f) (reset := reset) (st := st.base) hi hlen hdat
  cases hb : boInit P.bo f reset (st.base.push (.start reset)) with
  | ub => rw [hb] at h0; exact h0
  | diverge => trivial
  | throw e b => rw [hb] at h0; exact h0
  | ok b =>
    rw [hb] at h0
    obtain ⟨⟨inits, c1, c2, c3⟩, hcur, htot, hbl, hbd⟩ := h0
    simp only [Res.bind, Res.andThen]
    -- the tree before the root
    have hpre : ∀ s : ImState XR M, s = (if b.totalIterations = 0 then { st with base := b, tree := imNewTree } else { st with base := b }) →
        s.base = b ∧ s.tree.length = N ∧ (∀ h L, s.tree[h]? = some L → LevOk f.dimIn h L) ∧
        (F → ∀ (h : Nat) (L : Lev XR), s.tree[h]? = some L → L = ⟨[], [], [], [], [], []⟩) := by
      intro s hse
      by_cases hFF : F
      · rw [if_pos (htot.2 hFF)] at hse
        subst hse
        have hemp : ∀ (h : Nat) (L : Lev XR), (imNewTree : List (Lev XR))[h]? = some L → L = ⟨[], [], [], [], [], []⟩ := by
          intro h L hL
          unfold imNewTree at hL
          rw [List.getElem?_replicate] at hL
          split at hL
          · exact (Option.some.inj hL).symm
          · cases hL
        refine ⟨rfl, by rw [hN1 hFF]; simp only [imNewTree, List.length_replicate], ?_, fun _ => hemp⟩
        intro h L hL
        rw [hemp h L hL]
        exact ⟨rfl, rfl, rfl, rfl, rfl, by intro i hi; simp at hi⟩
      · rw [if_neg (fun h => hFF (htot.1 h))] at hse
        subst hse
        obtain ⟨t1, -, t3⟩ := htree hFF
        exact ⟨rfl, t1.symm, t3, fun h => absurd h hFF⟩
    have hNpos : 0 < N := by
      by_cases hFF : F
      · rw [hN1 hFF]; omega
      · exact (htree hFF).2.1
    generalize hse : (if b.totalIterations = 0 then { st with base := b, tree := imNewTree } else { st with base := b } : ImState XR M) = s
    obtain ⟨p1, p2, p3, p4⟩ := hpre s hse.symm
    have hpb : BPre f.dimIn F (callPts st.base.trace ++ inits) { s.base with model := P.bo.ops.fresh f.dimIn f.dimOut } := by
      rw [p1]
      exact ⟨⟨[], by simpa using c1, by simp, by simpa using hcur⟩, fun hFF => (hbd hFF).of_eq rfl rfl rfl, hbl⟩
    have hroot := imRoot_post (U := U) (V := True) (f := f) afun { s with base := { s.base with model := P.bo.ops.fresh f.dimIn f.dimOut } }
      hNpos p2 p3 p4 hpb
    refine Res.Post.andThen (Q := fun st' => ImL f.dimIn F (callPts st.base.trace ++ inits) N st' ∧ st'.depth = 0) ?_ ?_
    · exact hroot.mono (fun _ h => h) (fun _ h => h.data)
    rintro s1 ⟨I1, hd1⟩
    have hloop := imLoop_post hP hd hf afun hs fuel s1 I1 (by rw [hd1]; simpa using hfuel)
    refine Res.Post.andThen (hloop.mono (fun _ h => h) (fun _ h => h.data)) ?_
    rintro s2 ⟨I2, ⟨bq, hbq⟩⟩
    obtain ⟨new, n1, n2, n3⟩ := I2.b.calls
    have done : ImDone P f afun F N st s2 :=
      ⟨⟨inits, new, n1, c2, c3, n2, n3⟩, I2.lev, I2.tiles, I2.b.data, I2.b.len, I2.len, ⟨bq, _, hbq, rfl⟩⟩
    split
    · unfold withModel
      cases hhp : P.bo.ops.optHp s2.base.model with
      | ub => exact hh _ hhp
      | diverge => trivial
      | throw e m => exact fun hFF => (I2.b.data hFF).of_eq rfl rfl rfl
      | ok m => exact ⟨done.calls, done.lev, done.tiles, fun hFF => (done.data hFF).of_eq rfl rfl rfl, done.len, done.treeLen, done.stop⟩
    · exact done

end Limbo
