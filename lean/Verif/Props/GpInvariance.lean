import Verif.Props.Gp
import Verif.Spec.GpInvariance

/-!
C117: predictions depend on the inputs through distances only.  C118: the predicted mean is linear in the observations, each output is
predicted from its own observations, and the predicted variance does not depend on the observations.
-/

namespace Limbo

open Finset Gp Matrix

variable {E : GpEnv} {A : GpAbs} {st : GpState E} {din dout : Nat}

theorem InputFreeMean.op {M : MeanImpl} (h : InputFreeMean M) (s : M.St) (x y : List ℝ) (mo : Nat → ℝ) (c : Nat) : M.op s x mo c = M.op s y mo c := by
  cases h <;> rfl

section

variable {T : List ℝ → List ℝ} {k : List ℝ → List ℝ → ℝ} {m : List ℝ → Nat → ℝ} {xs ys : List (List ℝ)}

/-- The positions of the transformed inputs are those of the inputs. -/
def mapEquiv (T : List ℝ → List ℝ) (xs : List (List ℝ)) : Fin (xs.map T).length ≃ Fin xs.length := finCongr (by simp)

theorem mapEquiv_get (T : List ℝ → List ℝ) (xs : List (List ℝ)) (i : Fin (xs.map T).length) : (xs.map T)[i] = T xs[mapEquiv T xs i] := by
  simp [mapEquiv]

theorem gramM_map (hx : ∀ x ∈ xs, x.length = din) (hk : ∀ x y, x.length = din → y.length = din → k (T x) (T y) = k x y) (sg : ℝ) :
    gramM k sg (xs.map T) = (gramM k sg xs).submatrix (mapEquiv T xs) (mapEquiv T xs) := by
  ext i j
  simp only [gramM, Matrix.of_apply, Matrix.submatrix_apply]
  rw [mapEquiv_get, mapEquiv_get, hk _ _ (hx xs[mapEquiv T xs i] (List.getElem_mem _)) (hx xs[mapEquiv T xs j] (List.getElem_mem _))]
  have e : (i = j) = (mapEquiv T xs i = mapEquiv T xs j) := by simp
  simp only [e]

theorem kvec_map (hx : ∀ x ∈ xs, x.length = din) (hk : ∀ x y, x.length = din → y.length = din → k (T x) (T y) = k x y) {v : List ℝ}
    (hv : v.length = din) : kvec k (xs.map T) (T v) = kvec k xs v ∘ mapEquiv T xs := by
  funext i
  show k _ _ = _
  rw [mapEquiv_get, hk _ _ (hx xs[mapEquiv T xs i] (List.getElem_mem _)) hv]; rfl

theorem resid_map (hm : ∀ x y c, m x c = m y c) (c : Nat) : resid m (xs.map T) ys c = resid m xs ys c ∘ mapEquiv T xs := by
  funext i
  show _ - _ = _ - _
  rw [hm _ xs[mapEquiv T xs i]]; rfl

end

/-- **C117** (any kernel): let `T` be a map of the input space the kernel does not notice.  A GP fitted on `T`-transformed inputs makes at
`T v` the prediction the GP fitted on the inputs makes at `v`, and both have the same log-likelihood. -/
theorem C117_input_map (hE : LawfulEnv E) (hM : InputFreeMean E.M) (hr : GpReach E A st) {T : List ℝ → List ℝ}
    (hT : ∀ x, x.length = din → (T x).length = din)
    (hK : ∀ s x y, x.length = din → y.length = din → E.K.kernel s (T x) (T y) = E.K.kernel s x y)
    (xs ys : List (List ℝ)) (hd : DataSet xs ys din dout) (junk junk' : Nat → Nat → ℝ) :
    ∃ s t, compute junk st xs ys true = some s ∧ compute junk' st (xs.map T) ys true = some t ∧
      (∀ v, v.length = din → ∃ m m', mu s v = some m ∧ mu t (T v) = some m' ∧ ∀ c < dout, m' c = m c) ∧
      (∀ v, v.length = din → ∃ r, sigma s v = some r ∧ sigma t (T v) = some r) ∧
      ∃ r, (computeLogLik s).map (·.2) = some r ∧ (computeLogLik t).map (·.2) = some r := by
  have hd' : DataSet (xs.map T) ys din dout := ⟨by simpa using hd.nonempty, by simpa using hd.same,
    fun x hx => by obtain ⟨y, hy, rfl⟩ := List.mem_map.1 hx; exact hT _ (hd.inputs y hy), hd.outputs, hd.din_pos, hd.dout_pos⟩
  have Tr := hr.tracks hE
  obtain ⟨s, h1, T1, hk1, hm1, -, -⟩ := track_compute hE junk Tr hd true
  obtain ⟨t, h2, T2, hk2, hm2, -, -⟩ := track_compute hE junk' Tr hd' true
  have hk : t.kf = s.kf := by rw [hk1, hk2]
  have hm : t.mf = s.mf := by rw [hm1, hm2]
  have hmf : ∀ x y c, meanFn s.mf ys dout x c = meanFn s.mf ys dout y c := fun x y c => hM.op _ _ _ _ _
  have hG := gramM_map hd.inputs (hK s.kf.inner)
  refine ⟨s, t, h1, h2, fun v hv => ?_, fun v hv => ?_, ?_⟩
  · obtain ⟨a1, b1⟩ := mu_spec hE T1 hd.nonempty rfl hd v
    obtain ⟨a2, b2⟩ := mu_spec hE T2 hd'.nonempty rfl hd' (T v)
    refine ⟨_, _, a1, a2, fun c hc => ?_⟩
    have c1 : _ = postMean (E.K.kernel s.kf.inner) (meanFn s.mf ys dout) (s.kf.noise + 1e-8) xs ys v c := b1 c hc
    have c2 : _ = postMean (E.K.kernel t.kf.inner) (meanFn t.mf ys dout) (t.kf.noise + 1e-8) (xs.map T) ys (T v) c := b2 c hc
    rw [c1, c2, hk, hm]
    unfold postMean
    rw [hG, kvec_map hd.inputs (hK s.kf.inner) hv, resid_map hmf, quad_perm, hmf (T v) v]
  · obtain ⟨a1, b1⟩ := sigma_spec hE T1 hd.nonempty rfl v
    obtain ⟨a2, b2⟩ := sigma_spec hE T2 hd'.nonempty rfl (T v)
    refine ⟨_, a1, ?_⟩
    have c1 : _ = if postVar (E.K.kernel s.kf.inner) (s.kf.noise + 1e-8) xs v ≤ dblEps then 0
      else postVar (E.K.kernel s.kf.inner) (s.kf.noise + 1e-8) xs v := b1
    have c2 : _ = if postVar (E.K.kernel t.kf.inner) (t.kf.noise + 1e-8) (xs.map T) (T v) ≤ dblEps then 0
      else postVar (E.K.kernel t.kf.inner) (t.kf.noise + 1e-8) (xs.map T) (T v) := b2
    have e : postVar (E.K.kernel s.kf.inner) (s.kf.noise + 1e-8) (xs.map T) (T v) = postVar (E.K.kernel s.kf.inner) (s.kf.noise + 1e-8) xs v := by
      unfold postVar
      rw [hG, kvec_map hd.inputs (hK s.kf.inner) hv, quad_perm, hK _ _ _ hv hv]
    rw [a2, c1, c2, hk, e]
  · obtain ⟨v1, a1, b1⟩ := logLik_spec hE T1 ⟨hd.nonempty, rfl, rfl, rfl⟩ hd
    obtain ⟨v2, a2, b2⟩ := logLik_spec hE T2 ⟨hd'.nonempty, rfl, rfl, rfl⟩ hd'
    refine ⟨v1, by rw [a1]; rfl, ?_⟩
    have c1 : v1 = ∑ c ∈ range dout, logMarginal (E.K.kernel s.kf.inner) (meanFn s.mf ys dout) (s.kf.noise + 1e-8) xs ys c
        + (dout - 1 : ℝ) * (1 / 2 * Real.log (gramM (E.K.kernel s.kf.inner) (s.kf.noise + 1e-8) xs).det
          + xs.length / 2 * Real.log (2 * Real.pi)) := b1
    have c2 : v2 = ∑ c ∈ range dout, logMarginal (E.K.kernel t.kf.inner) (meanFn t.mf ys dout) (t.kf.noise + 1e-8) (xs.map T) ys c
        + (dout - 1 : ℝ) * (1 / 2 * Real.log (gramM (E.K.kernel t.kf.inner) (t.kf.noise + 1e-8) (xs.map T)).det
          + (xs.map T).length / 2 * Real.log (2 * Real.pi)) := b2
    have e : ∀ c, logMarginal (E.K.kernel s.kf.inner) (meanFn s.mf ys dout) (s.kf.noise + 1e-8) (xs.map T) ys c
        = logMarginal (E.K.kernel s.kf.inner) (meanFn s.mf ys dout) (s.kf.noise + 1e-8) xs ys c := fun c => by
      unfold logMarginal
      rw [hG, resid_map hmf, quad_perm, Matrix.det_submatrix_equiv_self, List.length_map]
    rw [a2, Option.map_some, c1, c2, hk, hm, hG, Matrix.det_submatrix_equiv_self, List.length_map, sum_congr rfl fun c _ => e c]

theorem at'_translate {t x : List ℝ} (h : x.length = t.length) (i : Nat) : at' (translate t x) i = at' x i + at' t i := by
  unfold at' translate
  rcases Nat.lt_or_ge i x.length with hi | hi
  · rw [List.getD_eq_getElem _ _ (by simp; omega), List.getD_eq_getElem _ _ hi, List.getD_eq_getElem _ _ (by omega)]; simp
  · rw [List.getD_eq_default _ _ (by simp; omega), List.getD_eq_default _ _ hi, List.getD_eq_default _ _ (by omega)]; simp

theorem std_translate {K : KernelImpl} (h : StdKernel K) (s : K.St) {t x y : List ℝ} (hx : x.length = t.length) (hy : y.length = t.length) :
    K.kernel s (translate t x) (translate t y) = K.kernel s x y := by
  have e : ∀ i, at' (translate t x) i - at' (translate t y) i = at' x i - at' y i := fun i => by
    rw [at'_translate hx, at'_translate hy]; ring
  have hs : sqDist (translate t x) (translate t y) = sqDist x y := by
    unfold sqDist
    rw [show (translate t x).length = x.length by simp [translate, hx]]
    simp only [e]
  cases h with
  | exp => simp only [expKernel, hs]
  | matern32 => simp only [matern32, dist2, hs]
  | matern52 => simp only [matern52, dist2, hs]
  | seArd k => simp only [seArd, ArdSt.quad, ArdSt.ratio, e]

/-- **C117** (translations): with any of limbo's kernels, moving all inputs and the query point by the same vector changes neither the
predicted mean, nor the predicted variance, nor the log-likelihood — where the origin of the input space is does not matter. -/
theorem C117_translation (hE : LawfulEnv E) (hK : StdKernel E.K) (hM : InputFreeMean E.M) (hr : GpReach E A st) (t : List ℝ) (ht : t.length = din)
    (xs ys : List (List ℝ)) (hd : DataSet xs ys din dout) (junk junk' : Nat → Nat → ℝ) :
    ∃ s s', compute junk st xs ys true = some s ∧ compute junk' st (xs.map (translate t)) ys true = some s' ∧
      (∀ v, v.length = din → ∃ m m', mu s v = some m ∧ mu s' (translate t v) = some m' ∧ ∀ c < dout, m' c = m c) ∧
      (∀ v, v.length = din → ∃ r, sigma s v = some r ∧ sigma s' (translate t v) = some r) ∧
      ∃ r, (computeLogLik s).map (·.2) = some r ∧ (computeLogLik s').map (·.2) = some r :=
  C117_input_map hE hM hr (fun x hx => by simp [translate, hx, ht]) (fun s x y hx hy => std_translate hK s (by omega) (by omega)) xs ys hd junk junk'

theorem iso_keeps {K : KernelImpl} {T : List ℝ → List ℝ} (hT : KeepsDistances T din)
    (h : (∃ a l, K = expKernel a l) ∨ (∃ a l, K = matern32 a l) ∨ ∃ a l, K = matern52 a l) (s : K.St) {x y : List ℝ} (hx : x.length = din)
    (hy : y.length = din) : K.kernel s (T x) (T y) = K.kernel s x y := by
  have hs : sqDist (T x) (T y) = sqDist x y := by
    have := hT.dist x y hx hy
    unfold sqDist
    rw [hT.dim x hx, hx]
    simpa only [at', sq] using this
  obtain ⟨a, l, rfl⟩ | ⟨a, l, rfl⟩ | ⟨a, l, rfl⟩ := h
  · simp only [expKernel, hs]
  · simp only [matern32, dist2, hs]
  · simp only [matern52, dist2, hs]

/-- **C117** (rotations, reflections, exchanges of coordinates): with the isotropic kernels the predictions and the log-likelihood depend on
the inputs only through their distances. -/
theorem C117_isometry (hE : LawfulEnv E) (hK : (∃ a l, E.K = expKernel a l) ∨ (∃ a l, E.K = matern32 a l) ∨ ∃ a l, E.K = matern52 a l)
    (hM : InputFreeMean E.M) (hr : GpReach E A st) {T : List ℝ → List ℝ} (hT : KeepsDistances T din)
    (xs ys : List (List ℝ)) (hd : DataSet xs ys din dout) (junk junk' : Nat → Nat → ℝ) :
    ∃ s s', compute junk st xs ys true = some s ∧ compute junk' st (xs.map T) ys true = some s' ∧
      (∀ v, v.length = din → ∃ m m', mu s v = some m ∧ mu s' (T v) = some m' ∧ ∀ c < dout, m' c = m c) ∧
      (∀ v, v.length = din → ∃ r, sigma s v = some r ∧ sigma s' (T v) = some r) ∧
      ∃ r, (computeLogLik s).map (·.2) = some r ∧ (computeLogLik s').map (·.2) = some r :=
  C117_input_map hE hM hr hT.dim (fun s _ _ hx hy => iso_keeps hT hK s hx hy) xs ys hd junk junk'

/-- the hypotheses are met: exchanging the two coordinates keeps distances -/
example : KeepsDistances List.reverse 2 := by
  refine ⟨by simp, fun x y hx hy => ?_⟩
  obtain ⟨a, b, rfl⟩ := List.length_eq_two.1 hx
  obtain ⟨c, d, rfl⟩ := List.length_eq_two.1 hy
  simp [sum_range_succ, add_comm]

example : StdKernel exEnv.K ∧ InputFreeMean exEnv.M := ⟨.seArd 0 (by norm_num), .data⟩

example : ([[0, 1], [2, 3]] : List (List ℝ)).map (translate [10, -1]) = [[10, 0], [12, 2]] := by norm_num [translate]

/-! ## C118 -/

theorem dataMeanOf_lin {a b : ℝ} {ys ys1 ys2 : List (List ℝ)} (h1 : ys1.length = ys.length) (h2 : ys2.length = ys.length) {c c1 c2 : Nat}
    (h : ∀ i < ys.length, at' (ys.getD i []) c = a * at' (ys1.getD i []) c1 + b * at' (ys2.getD i []) c2) :
    dataMeanOf ys c = a * dataMeanOf ys1 c1 + b * dataMeanOf ys2 c2 := by
  have key : ∀ (n : Nat) (l : List (List ℝ)) (q : Nat), l.length = n → (l.map fun y => at' y q).sum = ∑ i ∈ range n, at' (l.getD i []) q := by
    intro n l q hl
    subst hl
    induction l with
    | nil => simp
    | cons y l ih => rw [List.map_cons, List.sum_cons, ih, List.length_cons, sum_range_succ']; simp [add_comm]
  unfold dataMeanOf
  rw [key _ ys c rfl, key _ ys1 c1 h1, key _ ys2 c2 h2, h1, h2, sum_congr rfl fun i hi => h i (by simpa using hi), sum_add_distrib, ← mul_sum,
    ← mul_sum]
  ring

/-- **C118**: three data sets at the same inputs.  If output `c` of the first is `a` times output `c1` of the second plus `b` times output
`c2` of the third, at every sample, then so are the predicted means, everywhere.  With `a = 1`, `b = 0`: an output is predicted from its own
observations only — a GP with several outputs predicts each of them as a GP of its own would. -/
theorem C118_linear (hE : LawfulEnv E) (hM : E.M = nullMean ∨ E.M = dataMean) (hr : GpReach E A st) (a b : ℝ) {xs ys ys1 ys2 : List (List ℝ)}
    {dout dout1 dout2 : Nat} (hd : DataSet xs ys din dout) (hd1 : DataSet xs ys1 din dout1) (hd2 : DataSet xs ys2 din dout2) {c c1 c2 : Nat}
    (hc : c < dout) (hc1 : c1 < dout1) (hc2 : c2 < dout2)
    (h : ∀ i < xs.length, at' (ys.getD i []) c = a * at' (ys1.getD i []) c1 + b * at' (ys2.getD i []) c2) (junk junk1 junk2 : Nat → Nat → ℝ) :
    ∃ s s1 s2, compute junk st xs ys true = some s ∧ compute junk1 st xs ys1 true = some s1 ∧ compute junk2 st xs ys2 true = some s2 ∧
      ∀ v, ∃ m m1 m2, mu s v = some m ∧ mu s1 v = some m1 ∧ mu s2 v = some m2 ∧ m c = a * m1 c1 + b * m2 c2 := by
  have Tr := hr.tracks hE
  obtain ⟨s, e0, T0, hk0, -, -, -⟩ := track_compute hE junk Tr hd true
  obtain ⟨s1, e1, T1, hk1, -, -, -⟩ := track_compute hE junk1 Tr hd1 true
  obtain ⟨s2, e2, T2, hk2, -, -, -⟩ := track_compute hE junk2 Tr hd2 true
  have k1 : s1.kf = s.kf := by rw [hk0, hk1]
  have k2 : s2.kf = s.kf := by rw [hk0, hk2]
  have hmean : ∀ x, meanFn s.mf ys dout x c = a * meanFn s1.mf ys1 dout1 x c1 + b * meanFn s2.mf ys2 dout2 x c2 := by
    intro x
    have hl : dataMeanOf ys c = a * dataMeanOf ys1 c1 + b * dataMeanOf ys2 c2 :=
      dataMeanOf_lin (by rw [hd.same, hd1.same]) (by rw [hd.same, hd2.same]) (by rwa [hd.same])
    clear T0 T1 T2 e0 e1 e2 hk0 hk1 hk2 k1 k2 Tr hr
    unfold meanFn
    obtain ⟨K, KP, M, llt⟩ := E
    rcases hM with hM | hM <;> dsimp only at hM <;> subst hM
    · simp [nullMean]
    · simp only [dataMean, if_pos hc, if_pos hc1, if_pos hc2, hl]
  refine ⟨s, s1, s2, e0, e1, e2, fun v => ?_⟩
  obtain ⟨a0, b0⟩ := mu_spec hE T0 hd.nonempty rfl hd v
  obtain ⟨a1, b1⟩ := mu_spec hE T1 hd1.nonempty rfl hd1 v
  obtain ⟨a2, b2⟩ := mu_spec hE T2 hd2.nonempty rfl hd2 v
  refine ⟨_, _, _, a0, a1, a2, ?_⟩
  have q0 : _ = postMean (E.K.kernel s.kf.inner) (meanFn s.mf ys dout) (s.kf.noise + 1e-8) xs ys v c := b0 c hc
  have q1 : _ = postMean (E.K.kernel s1.kf.inner) (meanFn s1.mf ys1 dout1) (s1.kf.noise + 1e-8) xs ys1 v c1 := b1 c1 hc1
  have q2 : _ = postMean (E.K.kernel s2.kf.inner) (meanFn s2.mf ys2 dout2) (s2.kf.noise + 1e-8) xs ys2 v c2 := b2 c2 hc2
  rw [q0, q1, q2, k1, k2]
  unfold postMean
  have hres : resid (meanFn s.mf ys dout) xs ys c
      = a • resid (meanFn s1.mf ys1 dout1) xs ys1 c1 + b • resid (meanFn s2.mf ys2 dout2) xs ys2 c2 := by
    funext i
    simp only [resid, Pi.add_apply, Pi.smul_apply, smul_eq_mul]
    rw [h i i.2, hmean]; ring
  rw [hres, hmean, Matrix.mulVec_add, Matrix.mulVec_smul, Matrix.mulVec_smul, dotProduct_add, dotProduct_smul, dotProduct_smul, smul_eq_mul,
    smul_eq_mul]
  ring

/-- **C118** (variance): the predicted variance depends on where the observations were made, not on what was observed, nor on the number of
outputs.  For every mean function. -/
theorem C118_variance (hE : LawfulEnv E) (hr : GpReach E A st) {xs ys ys1 : List (List ℝ)} {dout dout1 : Nat} (hd : DataSet xs ys din dout)
    (hd1 : DataSet xs ys1 din dout1) (junk junk1 : Nat → Nat → ℝ) :
    ∃ s s1, compute junk st xs ys true = some s ∧ compute junk1 st xs ys1 true = some s1 ∧
      ∀ v, ∃ r, sigma s v = some r ∧ sigma s1 v = some r := by
  have Tr := hr.tracks hE
  obtain ⟨s, e0, T0, hk0, -, -, -⟩ := track_compute hE junk Tr hd true
  obtain ⟨s1, e1, T1, hk1, -, -, -⟩ := track_compute hE junk1 Tr hd1 true
  have k1 : s1.kf = s.kf := by rw [hk0, hk1]
  refine ⟨s, s1, e0, e1, fun v => ?_⟩
  obtain ⟨a1, b1⟩ := sigma_spec hE T0 hd.nonempty rfl v
  obtain ⟨a2, b2⟩ := sigma_spec hE T1 hd1.nonempty rfl v
  refine ⟨_, a1, ?_⟩
  have c1 : _ = if postVar (E.K.kernel s.kf.inner) (s.kf.noise + 1e-8) xs v ≤ dblEps then 0
    else postVar (E.K.kernel s.kf.inner) (s.kf.noise + 1e-8) xs v := b1
  have c2 : _ = if postVar (E.K.kernel s1.kf.inner) (s1.kf.noise + 1e-8) xs v ≤ dblEps then 0
    else postVar (E.K.kernel s1.kf.inner) (s1.kf.noise + 1e-8) xs v := b2
  rw [a2, c1, c2, k1]

/-- the hypotheses are met: two outputs, the second three times the first; both agree with a GP of one output -/
example : DataSet [[0], [1]] [[1, 3], [-2, -6]] 1 2 ∧ DataSet [[0], [1]] [[1], [-2]] 1 1 ∧
    ∀ i < 2, at' (([[1, 3], [-2, -6]] : List (List ℝ)).getD i []) 1
      = 3 * at' (([[1], [-2]] : List (List ℝ)).getD i []) 0 + 0 * at' (([[1], [-2]] : List (List ℝ)).getD i []) 0 := by
  refine ⟨⟨by simp, by simp, by simp, by simp, by simp, by simp⟩, ⟨by simp, by simp, by simp, by simp, by simp, by simp⟩, fun i hi => ?_⟩
  interval_cases i <;> norm_num [at']

end Limbo
