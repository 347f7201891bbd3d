import Verif.Spec.Parego
import Verif.Lemmas.XtLaws
import Verif.Lemmas.GpEq
import Mathlib.Algebra.BigOperators.Group.List.Basic
import Mathlib.Tactic.Linarith

/-! Helper lemmas about the ParEGO model. -/

namespace Limbo

namespace Parego

theorem mapM_some_map {β γ : Type} {f : β → Option γ} {g : β → γ} : ∀ {l : List β}, (∀ a ∈ l, f a = some (g a)) → l.mapM f = some (l.map g) := by
  intro l
  induction l with
  | nil => intro _; rfl
  | cons a as ih =>
    intro h
    rw [List.mapM_cons, h a (by simp), ih (fun b hb => h b (by simp [hb]))]
    rfl

theorem mapM_some_inv {β γ : Type} {f : β → Option γ} : ∀ {l : List β} {l' : List γ}, l.mapM f = some l' →
    ∀ a ∈ l, ∃ b, f a = some b := by
  intro l
  induction l with
  | nil => intro l' _ a ha; simp at ha
  | cons a as ih =>
    intro l' h x hx
    rw [List.mapM_cons] at h
    cases hfa : f a with
    | none => rw [hfa] at h; simp at h
    | some b =>
      rw [hfa] at h
      cases has : as.mapM f with
      | none => rw [has] at h; simp at h
      | some bs =>
        rcases List.mem_cons.1 hx with rfl | hx
        · exact ⟨b, hfa⟩
        · exact ih has x hx

theorem mapM_length {β γ : Type} {f : β → Option γ} : ∀ {l : List β} {l' : List γ}, l.mapM f = some l' → l'.length = l.length := by
  intro l
  induction l with
  | nil => intro l' h; simp at h; simp [h]
  | cons a as ih =>
    intro l' h
    rw [List.mapM_cons] at h
    cases hfa : f a with
    | none => rw [hfa] at h; simp at h
    | some b =>
      rw [hfa] at h
      cases has : as.mapM f with
      | none => rw [has] at h; simp at h
      | some bs =>
        rw [has] at h
        simp at h
        rw [← h, List.length_cons, ih has, List.length_cons]

theorem foldl_add_fin : ∀ (xs : List ℝ) (a : ℝ), (xs.map XR.fin).foldl (fun a b => a + b) (XR.fin a) = XR.fin (a + xs.sum) := by
  intro xs
  induction xs with
  | nil => intro a; simp
  | cons x xs ih => intro a; simp only [List.map_cons, List.foldl_cons, XR.add_fin, ih, List.sum_cons]; congr 1; ring

theorem sumCoeff_fin (xs : List ℝ) : sumCoeff (xs.map XR.fin) = XR.fin xs.sum := by
  cases xs with
  | nil => simp only [List.map_nil, sumCoeff, XR.lit_eq, List.sum_nil]; norm_num
  | cons x xs => simp only [List.map_cons, sumCoeff, foldl_add_fin, List.sum_cons]

theorem foldl_max_fin : ∀ (xs : List ℝ) (a : ℝ), ∃ m, (xs.map XR.fin).foldl (fun a b => if lt a b then b else a) (XR.fin a) = XR.fin m ∧
    (m = a ∨ m ∈ xs) ∧ a ≤ m ∧ ∀ x ∈ xs, x ≤ m := by
  intro xs
  induction xs with
  | nil => intro a; exact ⟨a, rfl, Or.inl rfl, le_refl _, by simp⟩
  | cons x xs ih =>
    intro a
    simp only [List.map_cons, List.foldl_cons]
    by_cases h : a < x
    · rw [if_pos ((XR.lt_fin a x).2 h)]
      obtain ⟨m, h1, h2, h3, h4⟩ := ih x
      refine ⟨m, h1, Or.inr ?_, by linarith, ?_⟩
      · rcases h2 with rfl | h2
        · simp
        · simp [h2]
      · intro y hy
        rcases List.mem_cons.1 hy with rfl | hy
        · exact h3
        · exact h4 y hy
    · rw [if_neg (by rw [XR.lt_fin]; exact h)]
      obtain ⟨m, h1, h2, h3, h4⟩ := ih a
      refine ⟨m, h1, ?_, h3, ?_⟩
      · rcases h2 with rfl | h2
        · exact Or.inl rfl
        · exact Or.inr (by simp [h2])
      · intro y hy
        rcases List.mem_cons.1 hy with rfl | hy
        · linarith
        · exact h4 y hy

theorem weights_fin (r : List ℝ) (h : r.sum ≠ 0) : weights (r.map XR.fin) = (r.map fun a => a / r.sum).map XR.fin := by
  unfold weights
  rw [sumCoeff_fin, List.map_map, List.map_map]
  refine List.map_congr_left fun a _ => ?_
  exact if_neg h

theorem zipWith_fin : ∀ (a b : List ℝ), List.zipWith (fun a b => a * b) (a.map XR.fin) (b.map XR.fin) =
    (List.zipWith (fun a b => a * b) a b).map XR.fin := by
  intro a
  induction a with
  | nil => intro b; rfl
  | cons x xs ih =>
    intro b
    cases b with
    | nil => rfl
    | cons y ys => simp only [List.map_cons, List.zipWith_cons_cons, XR.mul_fin, ih]

theorem zipWith_weights (r x : List ℝ) (h : r.length = x.length) :
    List.zipWith (fun a b => a * b) (r.map fun a => a / r.sum) x = (List.range x.length).map fun i => r.getD i 0 / r.sum * x.getD i 0 := by
  refine List.ext_getElem (by simp [h]) fun i h1 h2 => ?_
  simp at h1 h2
  simp [h1.1, h2]

/-- the scalarised value of real objectives -/
theorem scalarizeOne_fin (rho : ℝ) (r x : List ℝ) (hs : r.sum ≠ 0) (hl : r.length = x.length) :
    ∃ v, scalarizeOne (XR.fin rho) (weights (r.map XR.fin)) (x.map XR.fin) = some (XR.fin v) ∧ AugTchebycheff rho r x v := by
  have hne : r ≠ [] := by rintro rfl; simp at hs
  have hpos : 0 < x.length := by rw [← hl]; exact List.length_pos_of_ne_nil hne
  unfold scalarizeOne
  rw [weights_fin r hs, if_pos (by simp [hl]), zipWith_fin, zipWith_weights r x hl]
  set p := (List.range x.length).map fun i => r.getD i 0 / r.sum * x.getD i 0 with hp
  have hmem : ∀ q, q ∈ p ↔ ∃ i < x.length, q = r.getD i 0 / r.sum * x.getD i 0 := by
    intro q
    rw [hp]
    simp only [List.mem_map, List.mem_range]
    constructor
    · rintro ⟨i, hi, rfl⟩; exact ⟨i, hi, rfl⟩
    · rintro ⟨i, hi, rfl⟩; exact ⟨i, hi, rfl⟩
  cases hpc : p with
  | nil =>
    have : p.length = x.length := by rw [hp]; simp
    rw [hpc] at this; simp at this; omega
  | cons a as =>
    obtain ⟨m, h1, h2, h3, h4⟩ := foldl_max_fin as a
    refine ⟨m + rho * p.sum, ?_, hl, m, ⟨?_, ?_⟩, rfl⟩
    · rw [hpc]
      simp only [List.map_cons, maxCoeff, h1, Option.map_some]
      rw [← List.map_cons, sumCoeff_fin, XR.mul_fin, XR.add_fin]
    · have : m ∈ p := by
        rw [hpc]
        rcases h2 with rfl | h2
        · simp
        · simp [h2]
      exact (hmem m).1 this
    · rintro q hq
      have : q ∈ p := (hmem q).2 hq
      rw [hpc] at this
      rcases List.mem_cons.1 this with rfl | h
      · exact h3
      · exact h4 q h

/-- a function giving the scalarised value -/
noncomputable def scal (rho : ℝ) (r x : List ℝ) : ℝ := by
  classical
  exact if h : ∃ v, scalarizeOne (XR.fin rho) (weights (r.map XR.fin)) (x.map XR.fin) = some (XR.fin v) then h.choose else 0

theorem scal_spec (rho : ℝ) (r x : List ℝ) (hs : r.sum ≠ 0) (hl : r.length = x.length) :
    scalarizeOne (XR.fin rho) (weights (r.map XR.fin)) (x.map XR.fin) = some (XR.fin (scal rho r x)) ∧ AugTchebycheff rho r x (scal rho r x) := by
  obtain ⟨v, h1, h2⟩ := scalarizeOne_fin rho r x hs hl
  have hex : ∃ v, scalarizeOne (XR.fin rho) (weights (r.map XR.fin)) (x.map XR.fin) = some (XR.fin v) := ⟨v, h1⟩
  have e : scal rho r x = hex.choose := by unfold scal; rw [dif_pos hex]
  have h3 := hex.choose_spec
  rw [e]
  refine ⟨h3, ?_⟩
  have h3'' := h1.symm.trans h3
  have : v = hex.choose := by
    have h3' : (Xt.fin v : Xt ℝ) = Xt.fin hex.choose := Option.some.inj h3''
    injection h3'
  rw [← this]; exact h2

theorem scalarizeObs_fin (rho : ℝ) (r : List ℝ) (ys : List (List ℝ)) (hs : r.sum ≠ 0) (hl : ∀ y ∈ ys, r.length = y.length) :
    (scalarizeObs (XR.fin rho) (r.map XR.fin) (ys.map fun y => y.map XR.fin)).bind (fun zs => zs.mapM fun (z : List XR) => z.mapM toReal) =
      some (ys.map fun y => [scal rho r y]) := by
  unfold scalarizeObs
  have : (ys.map fun y => y.map XR.fin).mapM (fun x => (scalarizeOne (XR.fin rho) (weights (r.map XR.fin)) x).map fun v => [v]) =
      some (ys.map fun y => [XR.fin (scal rho r y)]) := by
    have := mapM_some_map (f := fun y : List ℝ => (scalarizeOne (XR.fin rho) (weights (r.map XR.fin)) (y.map XR.fin)).map fun v => [v])
      (g := fun y => [XR.fin (scal rho r y)]) (l := ys) (fun y hy => by rw [(scal_spec rho r y hs (hl y hy)).1]; rfl)
    rw [← this, List.mapM_map]
    rfl
  rw [this, Option.bind_some]
  have h2 := mapM_some_map (f := fun y : List ℝ => [XR.fin (scal rho r y)].mapM toReal) (g := fun y => [scal rho r y]) (l := ys) (fun y _ => rfl)
  rw [← h2, List.mapM_map]
  rfl

/-- success means that the sizes match -/
theorem scalarizeObs_sizes {rho : ℝ} {r : List ℝ} {ys : List (List ℝ)} {zs : List (List XR)}
    (h : scalarizeObs (XR.fin rho) (r.map XR.fin) (ys.map fun y => y.map XR.fin) = some zs) : ∀ y ∈ ys, r.length = y.length := by
  intro y hy
  unfold scalarizeObs at h
  obtain ⟨b, hb⟩ := mapM_some_inv h (y.map XR.fin) (List.mem_map_of_mem hy)
  by_contra hc
  rw [scalarizeOne, if_neg (by simp [weights]; exact hc)] at hb
  simp at hb

variable {E : GpEnv}

/-- `compute` overwrites the samples -/
theorem compute_samples (junk : Nat → Nat → ℝ) (st : GpState E) (s xs ys : List (List ℝ)) (ck : Bool) :
    Gp.compute junk { st with samples := s } xs ys ck = Gp.compute junk st xs ys ck := by
  have : ∀ din dout, Gp.adaptDims { st with samples := s } din dout = { Gp.adaptDims st din dout with samples := s } := by
    intro din dout
    unfold Gp.adaptDims
    by_cases h1 : st.dimIn ≠ din <;> by_cases h2 : st.dimOut ≠ dout <;> simp [h1, h2]
  simp only [Gp.compute, this]

/-- what `compute` does when it succeeds -/
theorem compute_ok {rho : ℝ} {c : Ctx} {st st' : St E} {xs ys : List (List ℝ)} (hpos : (c.randomVector (ys.headD []).length).sum ≠ 0)
    (h : compute rho c st xs ys = some st') :
    ys ≠ [] ∧ (∀ y ∈ ys, y.length = (ys.headD []).length) ∧ st'.raw = ys ∧ st'.nbObjs = (ys.headD []).length ∧
      Gp.compute c.junk st.gp xs (ys.map fun y => [scal rho (c.randomVector (ys.headD []).length) y]) true = some st'.gp := by
  cases ys with
  | nil => simp [compute] at h
  | cons y0 ys0 =>
    simp only [compute, List.headD_cons] at h hpos ⊢
    cases hz : scalarizeObs (XR.fin rho) ((c.randomVector y0.length).map XR.fin) ((y0 :: ys0).map fun y => y.map XR.fin) with
    | none => rw [hz] at h; simp at h
    | some zs =>
      have hsz := scalarizeObs_sizes hz
      have hfin := scalarizeObs_fin rho (c.randomVector y0.length) (y0 :: ys0) hpos hsz
      rw [hz, Option.bind_some] at hfin
      rw [hz, Option.bind_some, hfin, Option.bind_some, Option.map_eq_some_iff] at h
      obtain ⟨g, hg, rfl⟩ := h
      refine ⟨by simp, fun y hy => ?_, rfl, rfl, hg⟩
      rw [← hsz y hy]; simp [Ctx.randomVector]

/-- the invariant -/
structure Inv (rho : ℝ) (A : Abs) (st : St E) : Prop where
  reach : ∃ G, GpReach E G st.gp ∧ G.xs = A.xs ∧ G.ys = A.ys.map fun y => [scal rho A.r y]
  raw : st.raw = A.ys
  sizes : ∀ y ∈ A.ys, y.length = A.r.length
  sum : A.ys ≠ [] → A.r.sum ≠ 0

theorem gpabs_step_inherited {op : Gp.Op} (hp : Op.Proper (.inherited op)) (G : GpAbs) : (G.step op).xs = G.xs ∧ (G.step op).ys = G.ys ∧ op.Sane := by
  cases op <;> first | exact absurd hp id | exact ⟨rfl, rfl, trivial⟩

theorem step_inv (hE : LawfulEnv E) {rho : ℝ} {A : Abs} {st st' : St E} {op : Op} {c : Ctx} (hI : Inv rho A st) (hp : op.Proper)
    (hc : ∀ n, 0 < n → (c.randomVector n).sum ≠ 0) (h : step rho st op c = some st') : Inv rho (A.step op c) st' := by
  have main : ∀ (xs ys : List (List ℝ)) (g : GpState E), (∃ s, g = { st.gp with samples := s }) → ∀ raw n,
      compute rho c ⟨g, n, raw⟩ xs ys = some st' → Inv rho ⟨xs, ys, c.randomVector (ys.headD []).length⟩ st' := by
    intro xs ys g ⟨s, hg⟩ raw n h
    -- the drawn vector is not empty, otherwise the scalarisation fails
    have hpos : (c.randomVector (ys.headD []).length).sum ≠ 0 := by
      refine hc _ ?_
      by_contra h0
      have h0 : (ys.headD []).length = 0 := by omega
      cases ys with
      | nil => simp [compute] at h
      | cons y0 ys0 =>
        simp only [List.headD_cons, List.length_eq_zero_iff] at h0
        subst h0
        simp [compute, scalarizeObs, List.mapM_cons, scalarizeOne, Ctx.randomVector, weights, maxCoeff] at h
    obtain ⟨h1, h2, h3, h4, h5⟩ := compute_ok hpos h
    simp only at h5
    rw [hg, compute_samples] at h5
    obtain ⟨G, hG, -, -⟩ := hI.reach
    refine ⟨⟨_, hG.step (op := .compute _ _ true) (junk := c.junk) trivial h5, rfl, rfl⟩, h3, fun y hy => ?_, fun _ => hpos⟩
    simp only [Ctx.randomVector, List.length_map, List.length_range]
    exact h2 y hy
  cases op with
  | compute xs ys => exact main xs ys st.gp ⟨st.gp.samples, rfl⟩ st.raw st.nbObjs h
  | add x y =>
    have hs : st.gp.samples = A.xs := by
      obtain ⟨G, hG, h1, -⟩ := hI.reach
      rw [← h1]; exact (hG.tracks hE).samples
    simp only [step, addSample] at h
    rw [hs, hI.raw] at h
    exact main _ _ _ ⟨_, rfl⟩ _ _ h
  | inherited op =>
    simp only [step, Option.map_eq_some_iff] at h
    obtain ⟨g, hg, rfl⟩ := h
    obtain ⟨G, hG, h1, h2⟩ := hI.reach
    obtain ⟨e1, e2, hs⟩ := gpabs_step_inherited hp G
    refine ⟨⟨_, hG.step hs hg, by rw [e1]; exact h1, by rw [e2]; exact h2⟩, hI.raw, hI.sizes, hI.sum⟩

theorem run_inv (hE : LawfulEnv E) {rho : ℝ} : ∀ (ops : List (Op × Ctx)) {A : Abs} {st st' : St E}, Inv rho A st →
    (∀ o ∈ ops, o.1.Proper ∧ ∀ n, 0 < n → (o.2.randomVector n).sum ≠ 0) → run rho st ops = some st' → Inv rho (A.run ops) st' := by
  intro ops
  induction ops with
  | nil => intro A st st' hI _ h; simp only [run, Option.some.injEq] at h; rw [← h]; exact hI
  | cons o os ih =>
    intro A st st' hI hall h
    simp only [run] at h
    cases hs : step rho st o.1 o.2 with
    | none => rw [hs] at h; simp at h
    | some s1 =>
      rw [hs, Option.bind_some] at h
      exact ih (step_inv hE hI (hall o (by simp)).1 (hall o (by simp)).2 hs) (fun o ho => hall o (by simp [ho])) h

theorem new_inv (rho : ℝ) (u : ℝ × ℝ) (n : Nat) : Inv rho ⟨[], [], []⟩ (new E u n) :=
  ⟨⟨_, GpReach.new u, rfl, rfl⟩, rfl, by simp, by simp⟩

theorem newDims_inv (rho : ℝ) (u : ℝ × ℝ) (din dout : Nat) : Inv rho ⟨[], [], []⟩ (newDims E u din dout) :=
  ⟨⟨_, GpReach.newDims u din 1, rfl, rfl⟩, rfl, by simp, by simp⟩

end Parego

end Limbo
