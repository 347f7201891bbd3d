import Verif.Lemmas.MatDeriv
import Verif.Lemmas.GpObs2
import Verif.Lemmas.Mean
import Verif.Spec.GpLik

/-! The gradients of the likelihood and of the leave-one-out criterion. -/

set_option linter.unusedSectionVars false

namespace Limbo.Gp

open Finset Matrix

variable {E : GpEnv} {A : GpAbs} {s u : GpState E} {din dout : Nat}

theorem forN_tri (n : Nat) (a : Nat → Nat → ℝ) : ∀ (w : Nat → Nat → Nat → ℝ) (z : Nat → ℝ) (q : Nat),
    (∀ i j, w i j q = a i j) →
    (forN n (fun i grad => forN (i + 1) (fun j grad => if i = j then (fun q => grad q + w i j q * 0.5) else fun q => grad q + w i j q) grad) z) q
      = z q + ∑ i ∈ range n, (∑ j ∈ range i, a i j + a i i * 0.5) := by
  intro w z q hw
  have inner : ∀ i m (z : Nat → ℝ), m ≤ i →
      (forN m (fun j (grad : Nat → ℝ) => if i = j then (fun q => grad q + w i j q * 0.5) else fun q => grad q + w i j q) z) q = z q + ∑ j ∈ range m, a i j := by
    intro i m
    induction m with
    | zero => intro z _; simp [forN]
    | succ m ih =>
      intro z hm
      rw [forN, if_neg (by omega), sum_range_succ, ih z (by omega), hw]
      ring
  induction n with
  | zero => simp [forN]
  | succ n ih =>
    rw [forN, sum_range_succ, forN, if_pos rfl]
    rw [inner n n _ le_rfl, ih, hw]
    ring

theorem sum_tri (n : Nat) (b : Nat → Nat → ℝ) (hb : ∀ i < n, ∀ j < n, b i j = b j i) :
    ∑ i ∈ range n, (∑ j ∈ range i, b i j + b i i * 0.5) = 1 / 2 * ∑ i ∈ range n, ∑ j ∈ range n, b i j := by
  induction n with
  | zero => simp
  | succ n ih =>
    rw [sum_range_succ, ih fun i hi j hj => hb i (by omega) j (by omega), sum_range_succ]
    simp only [sum_range_succ, sum_add_distrib]
    have : ∑ i ∈ range n, b i n = ∑ i ∈ range n, b n i := sum_congr rfl fun i hi => hb i (by have := mem_range.1 hi; omega) n (by omega)
    rw [this]
    ring

/-- What the arrays of an up-to-date GP hold. -/
structure Fitted (u : GpState E) (xs ys : List (List ℝ)) (dout : Nat) : Prop where
  pd : PD xs.length (gramN u.kf xs)
  arows : u.alpha.rows = xs.length
  acols : u.alpha.cols = dout
  w : ∀ c < dout, (toM xs.length (gramN u.kf xs))⁻¹ *ᵥ resid (meanFn u.mf ys dout) xs ys c = fun i : Fin xs.length => u.alpha.e i c
  mrows : u.obsMean.rows = xs.length
  mcols : u.obsMean.cols = dout
  m : ∀ c < dout, ∀ i : Fin xs.length, u.obsMean.e i c = resid (meanFn u.mf ys dout) xs ys c i

theorem fitted (hE : LawfulEnv E) (T : Tracks E A u) (hA : A.UpToDate) (hd : DataSet A.xs A.ys din dout) : Fitted u A.xs A.ys dout := by
  obtain ⟨hne, hAk, hAm, hAa⟩ := hA
  have h1 := T.hasData hd
  have m1 := T.mok hne hAm
  have a1 := T.aok hne hAa
  rw [h1.dimOut, Int.toNat_natCast] at m1 a1
  have hpd : PD A.xs.length (gramN u.kf A.xs) := gram_pd (T.kokd hE h1) hd.inputs
  refine ⟨hpd, a1.rows, a1.cols, ?_, m1.rows, m1.cols, ?_⟩
  · intro c hc
    rw [resid_eq h1 c hc]
    have hsol := a1.sol c hc
    rw [T.samples] at hsol
    rw [T.samples]
    exact hpd.inv_mulVec hsol
  · intro c hc i
    rw [resid_eq h1 c hc, m1.e i i.2 c hc]

theorem inv_arr (hE : LawfulEnv E) (T : Tracks E A u) (hd : DataSet A.xs A.ys din dout) (hi : InvSync u A.xs.length) (i j : Fin A.xs.length) :
    u.invKernel.e i j = (toM A.xs.length (gramN u.kf A.xs))⁻¹ i j := by
  have hpd : PD A.xs.length (gramN u.kf A.xs) := gram_pd (T.kokd hE (T.hasData hd)) hd.inputs
  have hsol := hi.sol j j.2
  rw [T.samples] at hsol
  exact (hpd.inv_entry j hsol i).symm

/-- the kernel gradient, as a full double sum -/
theorem gradK_spec (hE : LawfulEnv E) (T : Tracks E A u) (hA : A.UpToDate) (hi : A.i = true) (hd : DataSet A.xs A.ys din dout) :
    ∃ s' g, kernelGradLogLik u = some (s', g) ∧ ∀ q,
      (∀ i < A.xs.length, ∀ j < A.xs.length, u.kf.gradIJ E.KP (A.xs.getD i []) (A.xs.getD j []) i j q
        = u.kf.gradIJ E.KP (A.xs.getD j []) (A.xs.getD i []) j i q) →
      g q = 1 / 2 * ∑ i : Fin A.xs.length, ∑ j : Fin A.xs.length,
        (∑ c ∈ range dout, ((toM A.xs.length (gramN u.kf A.xs))⁻¹ *ᵥ resid (meanFn u.mf A.ys dout) A.xs A.ys c) i
            * ((toM A.xs.length (gramN u.kf A.xs))⁻¹ *ᵥ resid (meanFn u.mf A.ys dout) A.xs A.ys c) j
          - (toM A.xs.length (gramN u.kf A.xs))⁻¹ i j) * u.kf.gradIJ E.KP (A.xs.getD i []) (A.xs.getD j []) i j q := by
  have F := fitted hE T hA hd
  obtain ⟨hne, hAk, hAm, hAa⟩ := hA
  obtain ⟨u', hu'⟩ := ensure_progress T hne hAk hAm
  obtain ⟨T', ⟨iv, hiv⟩, hinv⟩ := track_ensureInv T hu'
  have hI := hinv hne hi hAk
  have harr := fun i j => inv_arr (A := { A with i := A.i && A.k }) hE T' hd hI i j
  have hkf : u'.kf = u.kf := by rw [hiv]
  have hal : u'.alpha = u.alpha := by rw [hiv]
  have hsm : u'.samples = A.xs := T'.samples
  unfold kernelGradLogLik
  simp only [Option.bind_eq_bind]
  rw [hu', Option.bind_some, if_pos ⟨by rw [hal, F.arows, hI.rows], by rw [hal, F.arows, F.mrows], by rw [F.mrows, hsm]⟩]
  refine ⟨_, _, rfl, ?_⟩
  intro q hsym
  have ht := forN_tri u.obsMean.rows (fun i j => (∑ c ∈ range u'.alpha.cols, u'.alpha.e i c * u'.alpha.e j c - u'.invKernel.e i j) *
    u'.kf.gradIJ E.KP (u'.samples.getD i []) (u'.samples.getD j []) i j q)
    (fun i j q => (∑ c ∈ range u'.alpha.cols, u'.alpha.e i c * u'.alpha.e j c - u'.invKernel.e i j) *
    u'.kf.gradIJ E.KP (u'.samples.getD i []) (u'.samples.getD j []) i j q) (fun _ => 0) q (fun _ _ => rfl)
  refine ht.trans ?_
  rw [F.mrows, hsm, hkf, hal, F.acols, zero_add]
  simp only [hkf] at harr
  have hsymi : ∀ i < A.xs.length, ∀ j < A.xs.length, u'.invKernel.e i j = u'.invKernel.e j i := by
    intro i hi j hj
    have e1 := harr ⟨i, hi⟩ ⟨j, hj⟩
    have e2 := harr ⟨j, hj⟩ ⟨i, hi⟩
    simp only at e1 e2
    rw [e1, e2]
    have hT : (toM A.xs.length (gramN u.kf A.xs))ᵀ = toM A.xs.length (gramN u.kf A.xs) := by
      ext a b; exact F.pd.symm b b.2 a a.2
    have := congrFun (congrFun (Matrix.transpose_nonsing_inv (toM A.xs.length (gramN u.kf A.xs))) ⟨j, hj⟩) ⟨i, hi⟩
    rw [hT] at this
    exact this
  rw [sum_tri]
  · congr 1
    rw [Finset.sum_range]
    apply sum_congr rfl
    intro i _
    rw [Finset.sum_range]
    apply sum_congr rfl
    intro j _
    congr 1
    rw [show u'.invKernel.e i j = (toM A.xs.length (gramN u.kf A.xs))⁻¹ i j from harr i j]
    congr 1
    apply sum_congr rfl
    intro c hc
    rw [F.w c (mem_range.1 hc)]
  · intro i hi j hj
    rw [hsym i hi j hj, hsymi i hi j hj]
    congr 2
    apply sum_congr rfl
    intro c _
    ring

/-! ### changing the kernel parameters -/

/-- The value of the likelihood as a function of the covariance matrix. -/
noncomputable def likOf {n : Nat} (M : Matrix (Fin n) (Fin n) ℝ) (d : Nat) (r : Nat → Fin n → ℝ) : ℝ :=
  ∑ c ∈ range d, -(1 / 2) * (r c ⬝ᵥ (M⁻¹ *ᵥ r c)) - 1 / 2 * Real.log M.det - n / 2 * Real.log (2 * Real.pi)

theorem logLik_likOf (hE : LawfulEnv E) (T : Tracks E A u) (hA : A.UpToDate) (hd : DataSet A.xs A.ys din dout) :
    (computeLogLik u).map (·.2) = some (likOf (toM A.xs.length (gramN u.kf A.xs)) dout (resid (meanFn u.mf A.ys dout) A.xs A.ys)) := by
  obtain ⟨v, h1, h2⟩ := logLik_spec hE T hA hd
  rw [h1, Option.map_some, h2]
  congr 1
  unfold likOf logMarginal
  rw [gramM_eq]
  simp only [sum_sub_distrib, sum_const, card_range, nsmul_eq_mul]
  ring

/-- set the kernel parameters and recompute -/
theorem setK_recompute (hE : LawfulEnv E) (T : Tracks E A s) (hne : A.xs ≠ []) (hm : A.m = true) (p : List ℝ)
    (hp : s.kf.hParamsSize E.KP ≤ p.length) (junk : Nat → Nat → ℝ) :
    ∃ u, recompute junk (setKernelParams s p) false true = some u ∧ Tracks E ⟨A.xs, A.ys, true, true, true, true⟩ u ∧
      u.kf = s.kf.setHParams E.KP p ∧ u.mf = s.mf := by
  have T1 := track_setK T p hp
  obtain ⟨u, hu⟩ := recompute_progress hE junk T1 (um := false) (uk := true) ⟨hne, Or.inr hm, Or.inl rfl⟩
  obtain ⟨T2, h1, h2, -, -⟩ := track_recompute hE junk T1 hu
  refine ⟨u, hu, ?_, h1, h2⟩
  have e : (A.step (.setKernelParams p)).step (.recompute false true) = ⟨A.xs, A.ys, true, true, true, true⟩ := by
    simp [GpAbs.step, hm]
  rwa [e] at T2

theorem setM_recompute (hE : LawfulEnv E) (T : Tracks E A s) (hne : A.xs ≠ []) (hk : A.k = true) (hi : A.i = true) (p : List ℝ)
    (hp : E.M.hSize s.mf ≤ p.length) (junk : Nat → Nat → ℝ) :
    ∃ u, recompute junk (setMeanParams s p) true false = some u ∧ Tracks E ⟨A.xs, A.ys, true, true, true, true⟩ u ∧
      u.kf = s.kf ∧ u.mf = E.M.setH s.mf p := by
  have T1 := track_setM T p hp
  obtain ⟨u, hu⟩ := recompute_progress hE junk T1 (um := true) (uk := false) ⟨hne, Or.inl rfl, Or.inr hk⟩
  obtain ⟨T2, h1, h2, -, -⟩ := track_recompute hE junk T1 hu
  refine ⟨u, hu, ?_, h1, h2⟩
  have e : (A.step (.setMeanParams p)).step (.recompute true false) = ⟨A.xs, A.ys, true, true, true, true⟩ := by
    simp [GpAbs.step, hk, hi]
  rwa [e] at T2

theorem kernelLik_value (hE : LawfulEnv E) (T : Tracks E A s) (hm : A.m = true) (hd : DataSet A.xs A.ys din dout) (p : List ℝ)
    (hp : s.kf.hParamsSize E.KP ≤ p.length) (junk : Nat → Nat → ℝ) :
    kernelLik junk s p = some (likOf (toM A.xs.length (gramN (s.kf.setHParams E.KP p) A.xs)) dout (resid (meanFn s.mf A.ys dout) A.xs A.ys)) := by
  obtain ⟨u, hu, Tu, hk, hmf⟩ := setK_recompute hE T hd.nonempty hm p hp junk
  unfold kernelLik
  rw [hu, Option.bind_some, ← hk, ← hmf]
  exact logLik_likOf (A := ⟨A.xs, A.ys, true, true, true, true⟩) hE Tu ⟨hd.nonempty, rfl, rfl, rfl⟩ hd

theorem gramN_symm (hk : KOK s.kf din) {xs : List (List ℝ)} (hx : ∀ x ∈ xs, x.length = din) : (toM xs.length (gramN s.kf xs))ᵀ = toM xs.length (gramN s.kf xs) := by
  ext a b; exact (gram_pd hk hx).symm b b.2 a a.2

/-- derivative of the likelihood in terms of the derivative of the matrix -/
theorem likOf_deriv {n : Nat} {K : ℝ → Matrix (Fin n) (Fin n) ℝ} {D : Matrix (Fin n) (Fin n) ℝ} {t : ℝ} (h : MDeriv K D t) (h0 : (K t).det ≠ 0)
    (hs : (K t)ᵀ = K t) (d : Nat) (r : Nat → Fin n → ℝ) :
    HasDerivAt (fun t => likOf (K t) d r)
      (1 / 2 * ∑ i, ∑ j, (∑ c ∈ range d, ((K t)⁻¹ *ᵥ r c) i * ((K t)⁻¹ *ᵥ r c) j - (K t)⁻¹ i j) * D i j) t := by
  unfold likOf
  have hsum := HasDerivAt.fun_sum (u := range d) (A := fun c t => -(1 / 2) * (r c ⬝ᵥ ((K t)⁻¹ *ᵥ r c))) fun c _ => (h.quad h0 hs (r c)).const_mul (-(1 / 2))
  have := (hsum.fun_sub ((h.logdet h0).const_mul (1 / 2))).sub_const ((n : ℝ) / 2 * Real.log (2 * Real.pi))
  refine this.congr_deriv ?_
  have hsi : ((K t)⁻¹)ᵀ = (K t)⁻¹ := by rw [Matrix.transpose_nonsing_inv, hs]
  have e1 : ∑ i, ∑ j, (K t)⁻¹ i j * D j i = ∑ i, ∑ j, (K t)⁻¹ i j * D i j := by
    rw [sum_comm]
    refine sum_congr rfl fun i _ => sum_congr rfl fun j _ => ?_
    have := congrFun (congrFun hsi i) j
    rw [Matrix.transpose_apply] at this
    rw [this]
  rw [e1]
  simp only [sub_mul, sum_sub_distrib, mul_sub]
  congr 1
  rw [mul_sum]
  simp only [sum_mul]
  have e2 : ∀ i, ∑ j, ∑ c ∈ range d, ((K t)⁻¹ *ᵥ r c) i * ((K t)⁻¹ *ᵥ r c) j * D i j
      = ∑ c ∈ range d, ∑ j, ((K t)⁻¹ *ᵥ r c) i * ((K t)⁻¹ *ᵥ r c) j * D i j := fun i => sum_comm
  simp only [e2]
  simp only [mul_sum, ← sum_neg_distrib]
  rw [sum_comm]
  refine sum_congr rfl fun i _ => sum_congr rfl fun c _ => sum_congr rfl fun j _ => ?_
  ring

/-! ### mean parameters -/

theorem meanLik_value (hE : LawfulEnv E) (T : Tracks E A s) (hk : A.k = true) (hi : A.i = true) (hd : DataSet A.xs A.ys din dout) (p : List ℝ)
    (hp : E.M.hSize s.mf ≤ p.length) (junk : Nat → Nat → ℝ) :
    meanLik junk s p = some (likOf (toM A.xs.length (gramN s.kf A.xs)) dout (resid (meanFn (E.M.setH s.mf p) A.ys dout) A.xs A.ys)) := by
  obtain ⟨u, hu, Tu, hk, hmf⟩ := setM_recompute hE T hd.nonempty hk hi p hp junk
  unfold meanLik
  rw [hu, Option.bind_some, ← hk, ← hmf]
  exact logLik_likOf (A := ⟨A.xs, A.ys, true, true, true, true⟩) hE Tu ⟨hd.nonempty, rfl, rfl, rfl⟩ hd

theorem likOf_deriv_mean {n : Nat} {M : Matrix (Fin n) (Fin n) ℝ} (hs : Mᵀ = M) (d : Nat) (r : ℝ → Nat → Fin n → ℝ) (r' : Nat → Fin n → ℝ) (t : ℝ)
    (hr : ∀ c < d, ∀ i, HasDerivAt (fun t => r t c i) (-r' c i) t) :
    HasDerivAt (fun t => likOf M d (r t)) (∑ c ∈ range d, ∑ i, (M⁻¹ *ᵥ r t c) i * r' c i) t := by
  unfold likOf
  have hsi : (M⁻¹)ᵀ = M⁻¹ := by rw [Matrix.transpose_nonsing_inv, hs]
  have h1 : ∀ c ∈ range d, HasDerivAt (fun t => -(1 / 2) * (r t c ⬝ᵥ (M⁻¹ *ᵥ r t c))) (∑ i, (M⁻¹ *ᵥ r t c) i * r' c i) t := by
    intro c hc
    have hc := mem_range.1 hc
    have hw : ∀ i, HasDerivAt (fun t => (M⁻¹ *ᵥ r t c) i) (∑ j, M⁻¹ i j * (-r' c j)) t := by
      intro i
      show HasDerivAt (fun t => ∑ j, M⁻¹ i j * r t c j) _ t
      exact HasDerivAt.fun_sum fun j _ => (hr c hc j).const_mul (M⁻¹ i j)
    have hq : HasDerivAt (fun t => ∑ i, r t c i * (M⁻¹ *ᵥ r t c) i) (∑ i, (-r' c i * (M⁻¹ *ᵥ r t c) i + r t c i * ∑ j, M⁻¹ i j * (-r' c j))) t :=
      HasDerivAt.fun_sum fun i _ => (hr c hc i).fun_mul (hw i)
    refine (hq.const_mul (-(1 / 2))).congr_deriv ?_
    have e : ∑ i, r t c i * ∑ j, M⁻¹ i j * (-r' c j) = ∑ j, -r' c j * (M⁻¹ *ᵥ r t c) j := by
      simp only [Matrix.mulVec, dotProduct, mul_sum]
      rw [sum_comm]
      refine sum_congr rfl fun i _ => sum_congr rfl fun j _ => ?_
      have := congrFun (congrFun hsi i) j
      rw [Matrix.transpose_apply] at this
      rw [this]; ring
    rw [sum_add_distrib, e, ← sum_add_distrib, mul_sum]
    refine sum_congr rfl fun i _ => ?_
    ring
  exact ((HasDerivAt.fun_sum h1).sub_const _).sub_const _

theorem forN_opt_row (n : Nat) (f : Nat → Option (Nat → Nat → ℝ)) (G : Nat → Nat → Nat → ℝ) (hG : ∀ no < n, f no = some (G no)) (w : Nat → ℝ) (io : Nat)
    (z : Nat → ℝ) :
    forN n (fun no (grad? : Option (Nat → ℝ)) => grad?.bind fun grad => (f no).bind fun g => some fun q => grad q + w no * g io q) (some z)
      = some fun q => z q + ∑ no ∈ range n, w no * G no io q := by
  induction n with
  | zero => simp [forN]
  | succ n ih =>
    rw [forN, ih fun no h => hG no (by omega), Option.bind_some, hG n (by omega), Option.bind_some]
    congr 1
    funext q
    rw [sum_range_succ]; ring

theorem forN_opt (m n : Nat) (f : Nat → Option (Nat → Nat → ℝ)) (G : Nat → Nat → Nat → ℝ) (hG : ∀ no < n, f no = some (G no)) (w : Nat → Nat → ℝ) :
    forN m (fun io grad? => forN n (fun no (grad? : Option (Nat → ℝ)) => grad?.bind fun grad => (f no).bind fun g => some fun q => grad q + w io no * g io q) grad?)
      (some fun _ => 0) = some fun q => ∑ io ∈ range m, ∑ no ∈ range n, w io no * G no io q := by
  induction m with
  | zero => simp [forN]
  | succ m ih =>
    rw [forN, ih, forN_opt_row n f G hG]
    congr 1
    funext q
    rw [sum_range_succ]

theorem gradM_spec (hE : LawfulEnv E) (T : Tracks E A u) (hA : A.UpToDate) (hi : A.i = true) (hd : DataSet A.xs A.ys din dout)
    (G : Nat → Nat → Nat → ℝ) (hG : ∀ no < A.xs.length, E.M.grad u.mf (A.xs.getD no []) (meanObservation u) = some (G no)) :
    ∃ s', meanGradLogLik u = some (s', fun q => ∑ c ∈ range dout, ∑ i : Fin A.xs.length,
        ((toM A.xs.length (gramN u.kf A.xs))⁻¹ *ᵥ resid (meanFn u.mf A.ys dout) A.xs A.ys c) i * G i c q) := by
  have F := fitted hE T hA hd
  have hh := T.hasData hd
  obtain ⟨hne, hAk, hAm, hAa⟩ := hA
  obtain ⟨u', hu'⟩ := ensure_progress T hne hAk hAm
  obtain ⟨T', ⟨iv, hiv⟩, hinv⟩ := track_ensureInv T hu'
  have hI := hinv hne hi hAk
  have harr := fun i j => inv_arr (A := { A with i := A.i && A.k }) hE T' hd hI i j
  have hkf : u'.kf = u.kf := by rw [hiv]
  have hmf : u'.mf = u.mf := by rw [hiv]
  have hmo : meanObservation u' = meanObservation u := by rw [hiv]; rfl
  have hom : u'.obsMean = u.obsMean := by rw [hiv]
  have hsm : u'.samples = A.xs := T'.samples
  have hdo : u'.dimOut.toNat = dout := by rw [hiv]; show u.dimOut.toNat = dout; rw [hh.dimOut]; rfl
  simp only [hkf] at harr
  unfold meanGradLogLik
  simp only [Option.bind_eq_bind]
  rw [hu', Option.bind_some, if_pos ⟨by rw [hI.rows, F.mrows], by rw [hom], by rw [F.mrows, hsm], by rw [hdo, hom, F.mcols]⟩]
  rw [hdo, hsm, hmf, hmo, hom, F.mrows]
  rw [forN_opt dout A.xs.length (fun no => E.M.grad u.mf (A.xs.getD no []) (meanObservation u)) G hG
    (fun io no => ∑ a ∈ range A.xs.length, u.obsMean.e a io * u'.invKernel.e a no), Option.bind_some]
  refine ⟨u', ?_⟩
  congr 2
  funext q
  refine sum_congr rfl fun c hc => ?_
  have hc := mem_range.1 hc
  rw [Finset.sum_range]
  refine sum_congr rfl fun i _ => ?_
  congr 1
  rw [Finset.sum_range]
  simp only [Matrix.mulVec, dotProduct]
  refine sum_congr rfl fun j _ => ?_
  rw [show u'.invKernel.e j i = (toM A.xs.length (gramN u.kf A.xs))⁻¹ j i from harr j i, F.m c hc j, mul_comm]
  congr 1
  have hT : (toM A.xs.length (gramN u.kf A.xs))ᵀ = toM A.xs.length (gramN u.kf A.xs) := by
    ext a b; exact F.pd.symm b b.2 a a.2
  have := congrFun (congrFun (Matrix.transpose_nonsing_inv (toM A.xs.length (gramN u.kf A.xs))) i) j
  rw [hT] at this
  exact this

/-! ### leave one out -/

/-- The criterion as a function of the covariance matrix. -/
noncomputable def looOf {n : Nat} (M : Matrix (Fin n) (Fin n) ℝ) (d : Nat) (r : Nat → Fin n → ℝ) : ℝ :=
  ∑ c ∈ range d, ∑ i, (-0.5 * ((M⁻¹ *ᵥ r c) i * (M⁻¹ *ᵥ r c) i * (M⁻¹ i i)⁻¹) - 0.5 * Real.log (M⁻¹ i i)⁻¹ - 0.5 * Real.log (2 * Real.pi))

theorem loo_looOf (hE : LawfulEnv E) (T : Tracks E A u) (hA : A.UpToDate) (hi : A.i = true) (hd : DataSet A.xs A.ys din dout) :
    (computeLogLoo u).map (·.2) = some (looOf (toM A.xs.length (gramN u.kf A.xs)) dout (resid (meanFn u.mf A.ys dout) A.xs A.ys)) := by
  have F := fitted hE T hA hd
  obtain ⟨hne, hAk, hAm, hAa⟩ := hA
  obtain ⟨u', hu'⟩ := ensure_progress T hne hAk hAm
  obtain ⟨T', ⟨iv, hiv⟩, hinv⟩ := track_ensureInv T hu'
  have hI := hinv hne hi hAk
  have harr := fun i j => inv_arr (A := { A with i := A.i && A.k }) hE T' hd hI i j
  have hkf : u'.kf = u.kf := by rw [hiv]
  have hal : u'.alpha = u.alpha := by rw [hiv]
  simp only [hkf] at harr
  unfold computeLogLoo
  simp only [Option.bind_eq_bind]
  rw [hu', Option.bind_some, if_pos (by rw [hal, F.arows, hI.rows]), Option.map_some]
  congr 1
  simp only
  rw [hal, F.acols, hI.rows]
  unfold looOf
  refine sum_congr rfl fun c hc => ?_
  have hc := mem_range.1 hc
  rw [Finset.sum_range]
  refine sum_congr rfl fun i _ => ?_
  rw [show u'.invKernel.e i i = (toM A.xs.length (gramN u.kf A.xs))⁻¹ i i from harr i i, F.w c hc]

theorem kernelLoo_value (hE : LawfulEnv E) (T : Tracks E A s) (hm : A.m = true) (hd : DataSet A.xs A.ys din dout) (p : List ℝ)
    (hp : s.kf.hParamsSize E.KP ≤ p.length) (junk : Nat → Nat → ℝ) :
    kernelLoo junk s p = some (looOf (toM A.xs.length (gramN (s.kf.setHParams E.KP p) A.xs)) dout (resid (meanFn s.mf A.ys dout) A.xs A.ys)) := by
  obtain ⟨u, hu, Tu, hk, hmf⟩ := setK_recompute hE T hd.nonempty hm p hp junk
  unfold kernelLoo
  rw [hu, Option.bind_some, ← hk, ← hmf]
  exact loo_looOf (A := ⟨A.xs, A.ys, true, true, true, true⟩) hE Tu ⟨hd.nonempty, rfl, rfl, rfl⟩ rfl hd

theorem _root_.Limbo.PD.inv_diag_pos {n : Nat} {K : Nat → Nat → ℝ} (h : PD n K) (i : Fin n) : 0 < (toM n K)⁻¹ i i := by
  obtain ⟨L, hL⟩ := exists_chol K n h
  have := hL.fsub_norm fun a => if a = (i : Nat) then 1 else 0
  have e : (fun a : Fin n => if (a : Nat) = (i : Nat) then (1 : ℝ) else 0) ⬝ᵥ ((toM n K)⁻¹.mulVec fun a : Fin n => if (a : Nat) = (i : Nat) then (1 : ℝ) else 0)
      = (toM n K)⁻¹ i i := by
    simp [dotProduct, Matrix.mulVec, Fin.val_inj]
  rw [e] at this
  rw [← this]
  refine lt_of_le_of_ne (z_le _) fun h0 => ?_
  have hz := (sum_eq_zero_iff_of_nonneg fun a _ => mul_self_nonneg _).1 h0.symm
  have hs := hL.solve fun a => if a = (i : Nat) then 1 else 0
  have hz0 : ∀ a < n, fsub L (fun a => if a = (i : Nat) then 1 else 0) a = 0 := fun a ha => mul_self_eq_zero.1 (hz a (mem_range.2 ha))
  have hf := this
  rw [← h0] at hf
  have hdiag : (toM n K)⁻¹ i i = 0 := hf.symm
  -- the solution of K x = e_i has x_i = 0, so xᵀ K x = 0
  have hx := h.inv_entry i hs i
  rw [hdiag] at hx
  set x := bsub L n (fsub L fun a => if a = (i : Nat) then 1 else 0) with hxdef
  have hq : ∑ a ∈ range n, ∑ b ∈ range n, x a * K a b * x b = 0 := by
    have e1 : ∀ a ∈ range n, ∑ b ∈ range n, x a * K a b * x b = x a * (if a = (i : Nat) then 1 else 0) := by
      intro a ha
      rw [show (if a = (i : Nat) then (1 : ℝ) else 0) = ∑ b ∈ range n, K a b * x b from (hs a (mem_range.1 ha)).symm, mul_sum]
      exact sum_congr rfl fun b _ => by ring
    rw [sum_congr rfl e1]
    simp only [mul_ite, mul_one, mul_zero]
    rw [sum_ite_eq' (range n) (i : Nat) x, if_pos (mem_range.2 i.2), ← hx]
  by_cases hnz : ∃ a < n, x a ≠ 0
  · have := h.pos x hnz
    rw [hq] at this
    exact lt_irrefl _ this
  · push Not at hnz
    have h1 := hs i i.2
    rw [sum_eq_zero fun b hb => by rw [hnz b (mem_range.1 hb), mul_zero]] at h1
    simp at h1

theorem looOf_deriv {n : Nat} {K : ℝ → Matrix (Fin n) (Fin n) ℝ} {D : Matrix (Fin n) (Fin n) ℝ} {t : ℝ} (h : MDeriv K D t) (h0 : (K t).det ≠ 0)
    (hpos : ∀ i, 0 < (K t)⁻¹ i i) (d : Nat) (r : Nat → Fin n → ℝ) :
    HasDerivAt (fun t => looOf (K t) d r)
      (∑ c ∈ range d, ∑ i, (((K t)⁻¹ *ᵥ r c) i * (((K t)⁻¹ * D) *ᵥ ((K t)⁻¹ *ᵥ r c)) i
        - 0.5 * ((1 + ((K t)⁻¹ *ᵥ r c) i * ((K t)⁻¹ *ᵥ r c) i * ((K t)⁻¹ i i)⁻¹) * ((K t)⁻¹ * D * (K t)⁻¹) i i)) * ((K t)⁻¹ i i)⁻¹) t := by
  unfold looOf
  refine HasDerivAt.fun_sum fun c _ => HasDerivAt.fun_sum fun i _ => ?_
  have hw := h.weights h0 (r c) i
  have hi := h.inv h0 i i
  have hii := hi.fun_inv (hpos i).ne'
  have hl := hii.log (inv_ne_zero (hpos i).ne')
  have := ((((hw.fun_mul hw).fun_mul hii).const_mul (-0.5)).fun_sub (hl.const_mul 0.5)).sub_const (0.5 * Real.log (2 * Real.pi))
  refine this.congr_deriv ?_
  have hne := (hpos i).ne'
  rw [Matrix.neg_apply]
  field_simp
  ring

theorem forN_mirror_fn (n : Nat) (k : Nat → Nat → Nat → ℝ) :
    forN n (fun i dk => forN i (fun j (dk : Nat → Nat → Nat → ℝ) => fun a b => if a = j ∧ b = i then dk i j else dk a b) dk) k
      = fun a b => if b < n ∧ a < b then k b a else k a b := by
  have row : ∀ i m (k : Nat → Nat → Nat → ℝ), m ≤ i →
      forN m (fun j (dk : Nat → Nat → Nat → ℝ) => fun a b => if a = j ∧ b = i then dk i j else dk a b) k
        = fun a b => if b = i ∧ a < m then k i a else k a b := by
    intro i m
    induction m with
    | zero => intro k _; simp [forN]
    | succ m ih =>
      intro k hm
      rw [forN, ih k (by omega)]
      funext a b
      beta_reduce
      by_cases h1 : a = m ∧ b = i
      · rw [if_pos h1, if_neg (by omega), if_pos (by omega), h1.1]
      · rw [if_neg h1]
        by_cases h2 : b = i ∧ a < m
        · rw [if_pos h2, if_pos (by omega)]
        · rw [if_neg h2, if_neg (by omega)]
  induction n with
  | zero => simp [forN]
  | succ n ih =>
    rw [forN, ih, row n n _ le_rfl]
    funext a b
    beta_reduce
    by_cases h1 : b = n ∧ a < n
    · rw [if_pos h1, if_neg (by omega), if_pos (by omega), h1.1]
    · rw [if_neg h1]
      by_cases h2 : b < n ∧ a < b
      · rw [if_pos h2, if_pos (by omega)]
      · rw [if_neg h2, if_neg (by omega)]

theorem gradLoo_spec (hE : LawfulEnv E) (T : Tracks E A u) (hA : A.UpToDate) (hi : A.i = true) (hd : DataSet A.xs A.ys din dout) :
    ∃ s' g, kernelGradLogLoo u = some (s', g) ∧ ∀ q (D : Matrix (Fin A.xs.length) (Fin A.xs.length) ℝ) (K : Matrix (Fin A.xs.length) (Fin A.xs.length) ℝ)
      (r : Nat → Fin A.xs.length → ℝ), K = toM A.xs.length (gramN u.kf A.xs) → r = resid (meanFn u.mf A.ys dout) A.xs A.ys →
      (∀ i j : Fin A.xs.length, D i j = u.kf.gradIJ E.KP (A.xs.getD i []) (A.xs.getD j []) i j q) → Dᵀ = D →
      g q = ∑ c ∈ range dout, ∑ i, ((K⁻¹ *ᵥ r c) i * ((K⁻¹ * D) *ᵥ (K⁻¹ *ᵥ r c)) i
        - 0.5 * ((1 + (K⁻¹ *ᵥ r c) i * (K⁻¹ *ᵥ r c) i * (K⁻¹ i i)⁻¹) * (K⁻¹ * D * K⁻¹) i i)) * (K⁻¹ i i)⁻¹ := by
  have F := fitted hE T hA hd
  have hh := T.hasData hd
  obtain ⟨hne, hAk, hAm, hAa⟩ := hA
  obtain ⟨u', hu'⟩ := ensure_progress T hne hAk hAm
  obtain ⟨T', ⟨iv, hiv⟩, hinv⟩ := track_ensureInv T hu'
  have hI := hinv hne hi hAk
  have harr := fun i j => inv_arr (A := { A with i := A.i && A.k }) hE T' hd hI i j
  have hkf : u'.kf = u.kf := by rw [hiv]
  have hal : u'.alpha = u.alpha := by rw [hiv]
  have hsm : u'.samples = A.xs := T'.samples
  have hdo : u'.dimOut.toNat = dout := by rw [hiv]; show u.dimOut.toNat = dout; rw [hh.dimOut]; rfl
  simp only [hkf] at harr
  unfold kernelGradLogLoo
  simp only [Option.bind_eq_bind]
  rw [hu', Option.bind_some, if_pos ⟨by rw [hal, F.arows, F.mrows], by rw [hI.rows, F.mrows], by rw [F.mrows, hsm], by rw [hal, F.acols, hdo]⟩]
  refine ⟨_, _, rfl, ?_⟩
  intro q D K r hK hr hD hDs
  beta_reduce
  rw [forN_mirror_fn, F.mrows, hdo, hal, hsm, hkf]
  refine sum_congr rfl fun c hc => ?_
  have hc := mem_range.1 hc
  rw [Finset.sum_range]
  have hα : ∀ i : Fin A.xs.length, u.alpha.e i c = (K⁻¹ *ᵥ r c) i := fun i => by rw [hK, hr, F.w c hc]
  have hinv' : ∀ i j : Fin A.xs.length, u'.invKernel.e i j = K⁻¹ i j := fun i j => by rw [hK]; exact harr i j
  have hdk : ∀ i j : Fin A.xs.length, (if (j : Nat) < A.xs.length ∧ (i : Nat) < j then
      (fun q => if (i : Nat) ≤ j then u.kf.gradIJ E.KP (A.xs.getD j []) (A.xs.getD i []) j i q else 0)
      else (fun q => if (j : Nat) ≤ i then u.kf.gradIJ E.KP (A.xs.getD i []) (A.xs.getD j []) i j q else 0)) q = D i j := by
    intro i j
    by_cases hij : (i : Nat) < j
    · rw [if_pos ⟨j.2, hij⟩]
      beta_reduce
      rw [if_pos (by omega), ← hD j i]
      exact congrFun (congrFun hDs i) j
    · rw [if_neg (by omega)]
      beta_reduce
      rw [if_pos (by omega), ← hD i j]
  have hz : ∀ i k : Fin A.xs.length, ∑ a ∈ range A.xs.length, u'.invKernel.e i a * (if (k : Nat) < A.xs.length ∧ a < k then
      (fun q => if a ≤ (k : Nat) then u.kf.gradIJ E.KP (A.xs.getD k []) (A.xs.getD a []) k a q else 0)
      else (fun q => if (k : Nat) ≤ a then u.kf.gradIJ E.KP (A.xs.getD a []) (A.xs.getD k []) a k q else 0)) q = (K⁻¹ * D) i k := by
    intro i k
    rw [Finset.sum_range, Matrix.mul_apply]
    refine sum_congr rfl fun a _ => ?_
    rw [hinv' i a, hdk a k]
  refine sum_congr rfl fun i _ => ?_
  rw [hα i, hinv' i i]
  congr 2
  · congr 1
    rw [Finset.sum_range]
    simp only [Matrix.mulVec, dotProduct]
    refine sum_congr rfl fun a _ => ?_
    rw [hz i a, hα a]
    rfl
  · congr 2
    rw [Finset.sum_range, Matrix.mul_apply]
    refine sum_congr rfl fun a _ => ?_
    rw [hz i a, hinv' a i]

end Limbo.Gp
