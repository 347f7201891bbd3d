import Verif.Lemmas.GpEq

set_option linter.unusedSectionVars false

namespace Limbo

open Finset Gp Matrix

variable {E : GpEnv} {A B : GpAbs} {s t : GpState E}

/-! ## likelihood -/

theorem logLik_spec (hE : LawfulEnv E) (T : Tracks E A s) (hA : A.UpToDate) {din dout : Nat} (hd : DataSet A.xs A.ys din dout) :
    ∃ v, computeLogLik s = some ({ s with logLik := v }, v) ∧
      v = ∑ c ∈ range dout, logMarginal (E.K.kernel s.kf.inner) (meanFn s.mf A.ys dout) (s.kf.noise + 1e-8) A.xs A.ys c
        + (dout - 1 : ℝ) * (1 / 2 * Real.log (gramM (E.K.kernel s.kf.inner) (s.kf.noise + 1e-8) A.xs).det
          + A.xs.length / 2 * Real.log (2 * Real.pi)) := by
  obtain ⟨hne, hAk, hAm, hAa⟩ := hA
  have h1 := T.hasData hd
  have m1 := T.mok hne hAm
  have a1 := T.aok hne hAa
  rw [h1.dimOut, Int.toNat_natCast] at m1 a1
  have k1 := T.kok hAk
  have hpd := k1.chol.pd
  unfold computeLogLik
  simp only
  rw [if_pos ⟨by rw [m1.rows, a1.rows], by rw [m1.cols, a1.cols]⟩]
  refine ⟨_, rfl, ?_⟩
  rw [k1.rows, m1.rows, m1.cols, ← k1.chol.logdet, gramM_eq, T.samples]
  have e : ∀ c ∈ range dout, logMarginal (E.K.kernel s.kf.inner) (meanFn s.mf A.ys dout) (s.kf.noise + 1e-8) A.xs A.ys c
      = -(1 / 2) * (∑ i ∈ range A.xs.length, s.obsMean.e i c * s.alpha.e i c)
        - (1 / 2 * Real.log (toM A.xs.length (gramN s.kf A.xs)).det + A.xs.length / 2 * Real.log (2 * Real.pi)) := by
    intro c hc
    rw [mem_range] at hc
    unfold logMarginal
    rw [gramM_eq, resid_eq h1 c hc]
    have hsol := a1.sol c hc
    rw [T.samples] at hsol
    rw [T.samples] at hpd
    rw [T.samples, hpd.inv_mulVec hsol, dot_range A.xs.length (fun i => s.obs.e i c - meanAt s (A.xs.getD i []) c) (fun i => s.alpha.e i c)]
    have : ∑ i ∈ range A.xs.length, (s.obs.e i c - meanAt s (A.xs.getD i []) c) * s.alpha.e i c
        = ∑ i ∈ range A.xs.length, s.obsMean.e i c * s.alpha.e i c := by
      apply sum_congr rfl
      intro i hi
      rw [m1.e i (mem_range.1 hi) c hc, T.samples]
    rw [this]; ring
  rw [sum_congr rfl e, sum_sub_distrib, ← mul_sum, sum_const, card_range, nsmul_eq_mul]
  ring

/-! ## permutations -/

theorem zip_perm {xs ys xs' ys' : List (List ℝ)} (h : ys.length = xs.length) (h' : ys'.length = xs'.length)
    (hp : (xs.zip ys).Perm (xs'.zip ys')) :
    ∃ σ : Fin xs'.length ≃ Fin xs.length, ∀ i : Fin xs'.length, xs'.get i = xs.get (σ i) ∧ ys'.getD i [] = ys.getD (σ i) [] := by
  obtain ⟨σ, hσ⟩ := perm_equiv hp
  have e : (xs.zip ys).length = xs.length := by simp [h]
  have e' : (xs'.zip ys').length = xs'.length := by simp [h']
  refine ⟨((finCongr e').symm.trans σ).trans (finCongr e), fun i => ?_⟩
  have := hσ ((finCongr e').symm i)
  generalize hj : σ ((finCongr e').symm i) = j at this
  simp only [Equiv.trans_apply, hj]
  have hjl : (j : Nat) < xs.length := by have := j.2; omega
  have hjl' : (j : Nat) < ys.length := by omega
  have hil' : (i : Nat) < ys'.length := by have := i.2; omega
  have e1 : (xs'.zip ys').get ((finCongr e').symm i) = (xs'.get i, ys'[(i : Nat)]) := by
    simp [List.get_eq_getElem]
  have e2 : (xs.zip ys).get j = (xs[(j : Nat)], ys[(j : Nat)]) := by
    simp [List.get_eq_getElem]
  rw [e1, e2] at this
  simp only [Prod.mk.injEq] at this
  refine ⟨this.1, ?_⟩
  rw [List.getD_eq_getElem _ _ hil', this.2, finCongr_apply, Fin.val_cast, List.getD_eq_getElem _ _ hjl']

theorem gramM_perm (k : List ℝ → List ℝ → ℝ) (sg : ℝ) {xs xs' : List (List ℝ)} (σ : Fin xs'.length ≃ Fin xs.length)
    (h : ∀ i, xs'.get i = xs.get (σ i)) : gramM k sg xs' = (gramM k sg xs).submatrix σ σ := by
  ext i j
  simp only [gramM, Matrix.of_apply, Matrix.submatrix_apply]
  have hi := h i
  have hj := h j
  simp only [List.get_eq_getElem] at hi hj
  have e : (i = j) = (σ i = σ j) := by simp
  simp only [e]
  congr 1
  exact congrArg₂ k hi hj

theorem kvec_perm (k : List ℝ → List ℝ → ℝ) {xs xs' : List (List ℝ)} (v : List ℝ) (σ : Fin xs'.length ≃ Fin xs.length)
    (h : ∀ i, xs'.get i = xs.get (σ i)) : kvec k xs' v = kvec k xs v ∘ σ := by
  funext i
  exact congrArg (fun x => k x v) (h i)

theorem resid_perm (m : List ℝ → Nat → ℝ) {xs ys xs' ys' : List (List ℝ)} (c : Nat) (σ : Fin xs'.length ≃ Fin xs.length)
    (h : ∀ i : Fin xs'.length, xs'.get i = xs.get (σ i) ∧ ys'.getD i [] = ys.getD (σ i) []) :
    resid m xs' ys' c = resid m xs ys c ∘ σ := by
  funext i
  unfold resid
  simp only [Function.comp]
  rw [(h i).2]
  congr 1
  exact congrArg (fun x => m x c) (h i).1

theorem quad_perm {n n' : Nat} (σ : Fin n' ≃ Fin n) (K : Matrix (Fin n) (Fin n) ℝ) (a b : Fin n → ℝ) :
    (a ∘ σ) ⬝ᵥ ((K.submatrix σ σ)⁻¹ *ᵥ (b ∘ σ)) = a ⬝ᵥ (K⁻¹ *ᵥ b) := by
  rw [Matrix.inv_submatrix_equiv, Matrix.submatrix_mulVec_equiv, Function.comp_assoc, Equiv.self_comp_symm, Function.comp_id,
    comp_equiv_dotProduct_comp_equiv]

theorem dataMean_perm {xs ys xs' ys' : List (List ℝ)} (h : ys.length = xs.length) (h' : ys'.length = xs'.length)
    (hp : (xs.zip ys).Perm (xs'.zip ys')) (c : Nat) : dataMeanOf ys c = dataMeanOf ys' c := by
  have hy : ys.Perm ys' := by
    have := hp.map Prod.snd
    rwa [List.map_snd_zip (by omega), List.map_snd_zip (by omega)] at this
  unfold dataMeanOf
  rw [(hy.map _).sum_eq, hy.length_eq]

theorem postMean_perm (k : List ℝ → List ℝ → ℝ) (m : List ℝ → Nat → ℝ) (sg : ℝ) {xs ys xs' ys' : List (List ℝ)} (v : List ℝ) (c : Nat)
    (σ : Fin xs'.length ≃ Fin xs.length) (h : ∀ i : Fin xs'.length, xs'.get i = xs.get (σ i) ∧ ys'.getD i [] = ys.getD (σ i) []) :
    postMean k m sg xs' ys' v c = postMean k m sg xs ys v c := by
  unfold postMean
  rw [gramM_perm k sg σ fun i => (h i).1, kvec_perm k v σ fun i => (h i).1, resid_perm m c σ h, quad_perm]

theorem postVar_perm (k : List ℝ → List ℝ → ℝ) (sg : ℝ) {xs xs' : List (List ℝ)} (v : List ℝ)
    (σ : Fin xs'.length ≃ Fin xs.length) (h : ∀ i : Fin xs'.length, xs'.get i = xs.get (σ i)) :
    postVar k sg xs' v = postVar k sg xs v := by
  unfold postVar
  rw [gramM_perm k sg σ h, kvec_perm k v σ h, quad_perm]

theorem det_perm (k : List ℝ → List ℝ → ℝ) (sg : ℝ) {xs xs' : List (List ℝ)}
    (σ : Fin xs'.length ≃ Fin xs.length) (h : ∀ i : Fin xs'.length, xs'.get i = xs.get (σ i)) :
    (gramM k sg xs').det = (gramM k sg xs).det := by
  rw [gramM_perm k sg σ h, Matrix.det_submatrix_equiv_self]

theorem logMarginal_perm (k : List ℝ → List ℝ → ℝ) (m : List ℝ → Nat → ℝ) (sg : ℝ) {xs ys xs' ys' : List (List ℝ)} (c : Nat)
    (σ : Fin xs'.length ≃ Fin xs.length) (h : ∀ i : Fin xs'.length, xs'.get i = xs.get (σ i) ∧ ys'.getD i [] = ys.getD (σ i) []) :
    logMarginal k m sg xs' ys' c = logMarginal k m sg xs ys c := by
  have hlen : xs'.length = xs.length := by simpa using Fintype.card_congr σ
  unfold logMarginal
  rw [det_perm k sg σ fun i => (h i).1, gramM_perm k sg σ fun i => (h i).1, resid_perm m c σ h, quad_perm]
  congr 3
  rw [hlen]

/-! ## variance under new data -/

theorem IsChol.leading {n m : Nat} {L K : Nat → Nat → ℝ} (h : IsChol n L K) (hm : m ≤ n) : IsChol m L K := by
  refine ⟨fun i hi => h.diag i (by omega), fun i hi j hj hij => h.lower i (by omega) j (by omega) hij, fun i hi j hj => ?_⟩
  rw [← h.prod i (by omega) j (by omega)]
  apply sum_subset (range_subset_range.2 hm)
  intro k hk hk'
  rw [mem_range] at hk hk'
  rw [h.lower i (by omega) k hk (by omega), zero_mul]

theorem clip_mono {a b e : ℝ} (he : 0 ≤ e) (h : a ≤ b) : (if a ≤ e then 0 else a) ≤ if b ≤ e then 0 else b := by
  by_cases h1 : b ≤ e
  · rw [if_pos (h.trans h1), if_pos h1]
  · rw [if_neg h1]
    split
    · rw [not_le] at h1; linarith
    · exact h

theorem dblEps_nonneg : 0 ≤ dblEps := by unfold dblEps; positivity

/-- `sigma` cannot grow when the data of one GP start with those of the other -/
theorem sigmaK_mono (T1 : Tracks E A s) (T2 : Tracks E B t) (hk : s.kf = t.kf) {x : List (List ℝ)} (hx : B.xs = A.xs ++ x)
    (h1 : A.k = true) (h2 : B.k = true) (v : List ℝ) : sigmaK t v (computeK t v) ≤ sigmaK s v (computeK s v) := by
  have k1 := T1.kok h1
  have k2 := T2.kok h2
  have hle : A.xs.length ≤ B.xs.length := by rw [hx]; simp
  have hget : ∀ i < A.xs.length, B.xs.getD i [] = A.xs.getD i [] := by
    intro i hi
    rw [hx]; simp [List.getD, List.getElem?_append_left hi]
  have hL := k1.chol.unique (k2.chol.leading hle) (fun i hi j hj => by
    unfold gramN
    rw [T1.samples, T2.samples, hk, hget i hi, hget j (by omega)])
  have hz := fsub_congr s.L.e t.L.e (computeK s v) (computeK t v) A.xs.length (fun i hi j hj => hL i hi j (by omega)) (fun i hi => by
    unfold computeK
    rw [hk, T1.samples, T2.samples, hget i hi])
  unfold sigmaK
  simp only
  refine clip_mono dblEps_nonneg ?_
  rw [hk]
  have : ∑ i ∈ range s.samples.length, fsub s.L.e (computeK s v) i * fsub s.L.e (computeK s v) i
      ≤ ∑ i ∈ range t.samples.length, fsub t.L.e (computeK t v) i * fsub t.L.e (computeK t v) i := by
    rw [T1.samples, T2.samples]
    rw [sum_congr rfl (fun i hi => by rw [hz i (mem_range.1 hi)] :
      ∀ i ∈ range A.xs.length, fsub s.L.e (computeK s v) i * fsub s.L.e (computeK s v) i = fsub t.L.e (computeK t v) i * fsub t.L.e (computeK t v) i)]
    exact sum_le_sum_of_subset_of_nonneg (range_subset_range.2 hle) fun i _ _ => mul_self_nonneg _
  linarith

/-! ## adding one by one -/

/-- one call of `add_sample` per new pair -/
def addOps (new : List (List ℝ × List ℝ × (Nat → Nat → ℝ))) : List (Op × (Nat → Nat → ℝ)) := new.map fun p => (.add p.1 p.2.1, p.2.2)

theorem adds_ok (hE : LawfulEnv E) : ∀ (new : List (List ℝ × List ℝ × (Nat → Nat → ℝ))) {A : GpAbs} {s : GpState E} (_ : Tracks E A s)
    {din dout : Nat} (_ : DataSet (A.xs ++ new.map (·.1)) (A.ys ++ new.map (·.2.1)) din dout), new ≠ [] →
    ∃ s', run s (addOps new) = some s' ∧
      Tracks E { A with xs := A.xs ++ new.map (·.1), ys := A.ys ++ new.map (·.2.1), m := true, a := A.k, i := true } s' ∧
      s'.kf = (if s.dimIn = din then s.kf else BaseK.mk' E.KP din) ∧ s'.mf = (if s.dimOut = dout then s.mf else E.M.new dout) ∧
      s'.dimIn = din ∧ s'.dimOut = dout := by
  intro new
  induction new with
  | nil => intro A s T din dout hd hne; exact absurd rfl hne
  | cons p new ih =>
    intro A s T din dout hd _
    have hsame : A.ys.length = A.xs.length := by
      by_cases h : A.xs = []
      · rw [(T.empty h).2.2, h]
      · obtain ⟨_, _, hh⟩ := T.ne h; exact hh.data.same
    have hd1 : DataSet (A.xs ++ [p.1]) (A.ys ++ [p.2.1]) din dout := by
      refine ⟨by simp, by simp [hsame], fun x hx => hd.inputs x ?_, fun y hy => hd.outputs y ?_, hd.din_pos, hd.dout_pos⟩
      · simp only [List.mem_append, List.mem_singleton] at hx
        rcases hx with h | rfl
        · exact List.mem_append_left _ h
        · simp
      · simp only [List.mem_append, List.mem_singleton] at hy
        rcases hy with h | rfl
        · exact List.mem_append_left _ h
        · simp
    obtain ⟨s1, h1, T1, hk1, hm1, hi1, ho1⟩ := track_add hE p.2.2 T hd1
    by_cases hn : new = []
    · subst hn
      refine ⟨s1, ?_, ?_, hk1, hm1, hi1, ho1⟩
      · simp only [addOps, List.map_cons, List.map_nil, run, step, h1, Option.bind_some]
      · simpa [GpAbs.step] using T1
    · obtain ⟨s2, h2, T2, hk2, hm2, hi2, ho2⟩ := ih T1 (din := din) (dout := dout) (by simpa [GpAbs.step] using hd) hn
      refine ⟨s2, ?_, ?_, ?_, ?_, hi2, ho2⟩
      · simp only [addOps, List.map_cons, run, step, h1, Option.bind_some]
        exact h2
      · simpa [GpAbs.step] using T2
      · rw [hk2, if_pos hi1, hk1]
      · rw [hm2, if_pos ho1, hm1]

end Limbo
