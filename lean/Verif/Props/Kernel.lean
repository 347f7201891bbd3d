import Verif.Lemmas.Mean
import Verif.Lemmas.GpObs
import Mathlib.LinearAlgebra.Matrix.PosDef

/-!
Kernels and mean functions: C42-C46, C64.

`StdKernel I` says that `I` is one of the kernels limbo ships, configured with positive values; `KReach I P d k` that `k` is in a state
reached from construction by any number of `set_h_params` calls.  `k.op x y` is `k(x, y)`, `k.opIJ x y i j` is `k(x, y, i, j)`.
-/

namespace Limbo

open Finset

variable {I : KernelImpl} {P : KernelParams} {d : Nat} {k : BaseK I}

/-- `σ²`: the signal variance belonging to the reported hyper-parameters (the last one before the noise, in log space, halved). -/
noncomputable def signalVariance (I : KernelImpl) (s : I.St) : ℝ := Real.exp (2 * (I.params s).getLastD 0)

theorem getLastD_eq (l : List ℝ) : l.getLastD 0 = at' l (l.length - 1) := by
  unfold at'
  rw [List.getLastD_eq_getLast?, List.getLast?_eq_getElem?, List.getD_eq_getElem?_getD]

/-! ## C42 -/

/-- **C42**: every kernel is symmetric, positive, at most its signal variance, and equal to it on the diagonal. -/
theorem C42_symmetric_positive_bounded (hI : StdKernel I) (hk : KReach I P d k) (x y : List ℝ) (hx : x.length = d) (hy : y.length = d) :
    k.op x y = k.op y x ∧ 0 < k.op x y ∧ k.op x y ≤ k.op x x ∧ k.op x x = signalVariance I k.inner := by
  have h := std_values hI hk x y
  have hc := (std_cov hI hk).symm x y hx hy
  have e : signalVariance I k.inner = Real.exp (2 * at' (I.params k.inner) (I.paramsSize k.inner - 1)) := by
    unfold signalVariance
    rw [getLastD_eq, (std_params hI hk).1]
  simp only [Gp.op_eq (E := ⟨I, P, nullMean, fun _ _ _ _ => 0⟩)]
  rw [e]
  refine ⟨hc, h.2.1, ?_, h.1⟩
  show I.kernel k.inner x y ≤ I.kernel k.inner x x
  rw [h.1]; exact h.2.2

/-- **C42**: the noise (plus a jitter of 1e-8) is added exactly when both training indices are equal. -/
theorem C42_noise_only_on_diagonal (hI : StdKernel I) (hn : 0 ≤ P.noise) (hk : KReach I P d k) (x y : List ℝ) (i j : Nat) :
    k.opIJ x y i j = k.op x y + (if i = j then k.noise + 1e-8 else 0) ∧ (k.opIJ x y i j = k.op x y ↔ i ≠ j) := by
  have hnn := noise_pos hk hn
  unfold BaseK.opIJ BaseK.op
  rw [add_zero]
  refine ⟨rfl, ?_⟩
  by_cases h : i = j
  · rw [if_pos h]
    constructor
    · intro e
      have : k.noise + 1e-8 = 0 := by linarith
      norm_num at this
      linarith
    · intro h'; exact absurd h h'
  · rw [if_neg h]; simp [h]

/-- **C42**: a freshly constructed kernel uses the configured signal variance and noise. -/
theorem C42_initial_variance {sigmaSq l : ℝ} (h : 0 < sigmaSq) (hl : 0 < l) (kk : Nat) (x : List ℝ) :
    (BaseK.mk' P d : BaseK (expKernel sigmaSq l)).op x x = sigmaSq ∧ (BaseK.mk' P d : BaseK (matern32 sigmaSq l)).op x x = sigmaSq ∧
    (BaseK.mk' P d : BaseK (matern52 sigmaSq l)).op x x = sigmaSq ∧ (BaseK.mk' P d : BaseK (seArd kk sigmaSq)).op x x = sigmaSq ∧
    (BaseK.mk' P d : BaseK (seArd kk sigmaSq)).noise = P.noise := by
  have e : Real.exp (2 * Real.log √sigmaSq) = sigmaSq := by
    rw [Real.log_sqrt h.le, mul_div_cancel₀ _ two_ne_zero, Real.exp_log h]
  have h1 := (std_values (.exp h hl) (KReach.new (P := P) (d := d)) x x).1
  have h2 := (std_values (.matern32 h hl) (KReach.new (P := P) (d := d)) x x).1
  have h3 := (std_values (.matern52 h hl) (KReach.new (P := P) (d := d)) x x).1
  have h4 := (std_values (.seArd kk h) (KReach.new (P := P) (d := d)) x x).1
  simp only [BaseK.op, add_zero]
  refine ⟨h1.trans e, h2.trans e, h3.trans e, h4.trans ?_, rfl⟩
  refine Eq.trans ?_ e
  congr 2
  show at' (List.replicate (d + d * kk) 0 ++ [Real.log √sigmaSq]) (d + d * kk + 1 - 1) = _
  unfold at'
  simp

example : StdKernel (seArd 2 (3 : ℝ)) ∧ StdKernel (matern52 1 (1 / 2)) ∧
    KReach (seArd 2 (3 : ℝ)) ⟨0.01, true⟩ 1 ((BaseK.mk' ⟨0.01, true⟩ 1).setHParams ⟨0.01, true⟩ [0.5, -1, 2, 0.25, -3]) :=
  ⟨.seArd 2 (by norm_num), .matern52 (by norm_num) (by norm_num), .set _ .new (by
    show 1 + 1 * 2 + 1 + 1 ≤ 5
    omega)⟩

/-! ## C64: documented formulas -/

theorem eucl_sq {x y : List ℝ} (h : x.length = y.length) : (List.zipWith (fun a b => (a - b) ^ 2) x y).sum = sqDist x y := by
  unfold sqDist
  induction x generalizing y with
  | nil => simp
  | cons a x ih =>
    cases y with
    | nil => simp at h
    | cons b y =>
      simp only [List.zipWith_cons_cons, List.sum_cons, List.length_cons]
      rw [sum_range_succ', ih (by simpa using h)]
      simp only [at', List.getD_cons_succ, List.getD_cons_zero]
      ring

theorem eucl_eq {x y : List ℝ} (h : x.length = y.length) : eucl x y = dist2 x y := by
  unfold eucl dist2; rw [eucl_sq h]

/-- **C64**: after `set_h_params(p)` the isotropic kernels compute their documented formulas with `l = exp(p₀)`, `σ² = exp(2 p₁)`. -/
theorem C64_isotropic_formula {sigmaSq l₀ : ℝ} (x y : List ℝ) (hxy : x.length = y.length) (p₀ p₁ : ℝ) (rest : List ℝ)
    (k1 : BaseK (expKernel sigmaSq l₀)) (k2 : BaseK (matern32 sigmaSq l₀)) (k3 : BaseK (matern52 sigmaSq l₀)) :
    (k1.setHParams P (p₀ :: p₁ :: rest)).op x y = docExp (Real.exp p₁ ^ 2) (Real.exp p₀) x y ∧
    (k2.setHParams P (p₀ :: p₁ :: rest)).op x y = docMatern32 (Real.exp p₁ ^ 2) (Real.exp p₀) x y ∧
    (k3.setHParams P (p₀ :: p₁ :: rest)).op x y = docMatern52 (Real.exp p₁ ^ 2) (Real.exp p₀) x y := by
  have e2 : Real.exp (2 * p₁) = Real.exp p₁ ^ 2 := by rw [← Real.exp_nat_mul]; norm_num
  simp only [BaseK.op, add_zero, setH_inner]
  refine ⟨?_, ?_, ?_⟩
  · show Real.exp (2 * p₁) * Real.exp (-0.5 * (sqDist x y / (Real.exp p₀ * Real.exp p₀))) = _
    unfold docExp
    rw [eucl_eq hxy, e2]
    unfold dist2
    rw [Real.sq_sqrt (sqDist_nonneg x y)]
    congr 2
    have := (Real.exp_pos p₀).ne'
    field_simp
    norm_num
    ring
  · show Real.exp (2 * p₁) * (1 + √3 * dist2 x y / Real.exp p₀) * Real.exp (-(√3 * dist2 x y / Real.exp p₀)) = _
    unfold docMatern32
    rw [eucl_eq hxy, e2]
  · show Real.exp (2 * p₁) * (1 + √5 * dist2 x y / Real.exp p₀ + 5 * (dist2 x y * dist2 x y) / (3 * (Real.exp p₀ * Real.exp p₀)))
      * Real.exp (-(√5 * dist2 x y / Real.exp p₀)) = _
    unfold docMatern52
    rw [eucl_eq hxy, e2, sq (dist2 x y), sq (Real.exp p₀)]

/-- **C64**: after `set_h_params(l_1, …, l_d, Λ column by column, log σ, …)` (all but `Λ` in log space) `SquaredExpARD` computes its
documented formula. -/
theorem C64_ard_formula {sigmaSq : ℝ} {kk : Nat} {k : BaseK (seArd kk sigmaSq)} (hk : KReach _ P d k) (p : List ℝ)
    (_hp : k.hParamsSize P ≤ p.length) (x y : List ℝ) :
    (k.setHParams P p).op x y
      = docArd (Real.exp (at' p (d + d * kk)) ^ 2) (fun i : Fin d => Real.exp (at' p i))
          (Matrix.of fun (i : Fin d) (j : Fin kk) => at' p ((j + 1) * d + i)) (fun i => at' x i) (fun i => at' y i) := by
  obtain ⟨-, hdim⟩ := ard_reach hk
  have hin : (k.setHParams P p).inner = ArdSt.set kk k.inner (p.take (ArdSt.size kk k.inner)) := setH_inner P k p
  have hsz : ArdSt.size kk k.inner = d + d * kk + 1 := by unfold ArdSt.size; rw [hdim]
  have e2 : ∀ a : ℝ, Real.exp (2 * a) = Real.exp a ^ 2 := fun a => by rw [← Real.exp_nat_mul]; norm_num
  have hker : (k.setHParams P p).op x y = (ArdSt.set kk k.inner (p.take (d + d * kk + 1))).sf2
      * Real.exp (-0.5 * ArdSt.z kk (ArdSt.set kk k.inner (p.take (d + d * kk + 1))) x y) := by
    rw [← hsz, ← hin]
    unfold BaseK.op
    rw [add_zero]
    exact seArd_kernel kk sigmaSq _ x y
  rw [hker]
  unfold docArd
  simp only
  have hd' : (ArdSt.set kk k.inner (p.take (d + d * kk + 1))).dim = d := hdim
  congr 1
  · show Real.exp (2 * at' (p.take (d + d * kk + 1)) (ArdSt.size kk k.inner - 1)) = _
    rw [hsz, at'_take, if_pos (by omega), Nat.add_sub_cancel, e2]
  · congr 1
    rw [show (-0.5 : ℝ) = -(1 / 2) by norm_num, neg_mul]
    congr 2
    rw [ArdSt.z, ← ArdSt.quad_eq]
    unfold ArdSt.quad
    rw [hd', Finset.sum_range]
    simp only [Finset.sum_range, dotProduct, Matrix.mulVec, Pi.sub_apply, mul_sum]
    apply sum_congr rfl
    intro a _
    apply sum_congr rfl
    intro b _
    rw [mul_assoc]
    congr 2
    unfold ArdSt.M
    rw [Matrix.add_apply, Matrix.mul_apply, Matrix.diagonal_apply, Finset.sum_range]
    congr 1
    · apply sum_congr rfl
      intro j _
      have hA : ∀ a : Fin d, (ArdSt.set kk k.inner (p.take (d + d * kk + 1))).A a j = at' p ((j + 1) * d + a) := by
        intro a
        have : (j + 1 : ℕ) * d ≤ d * kk := by rw [Nat.mul_comm]; exact Nat.mul_le_mul_left _ j.2
        show (if (a : ℕ) < ArdSt.dim k.inner ∧ (j : ℕ) < kk then at' (p.take (d + d * kk + 1)) ((j + 1) * ArdSt.dim k.inner + a) else _) = _
        rw [if_pos ⟨by rw [hdim]; exact a.2, j.2⟩, hdim, at'_take, if_pos (by have := a.2; omega)]
      rw [hA a, hA b]
      rfl
    · have hl : (ArdSt.set kk k.inner (p.take (d + d * kk + 1))).ell a = Real.exp (at' p a) := by
        show (if (a : ℕ) < ArdSt.dim k.inner then Real.exp (at' (p.take (d + d * kk + 1)) a) else _) = _
        rw [if_pos (by rw [hdim]; exact a.2), at'_take, if_pos (by have := a.2; omega)]
      rw [hl]
      by_cases h : a = b
      · subst h; simp only [if_true]; rw [sq, mul_inv]
      · rw [if_neg (by simpa [Fin.ext_iff] using h), if_neg h]

/-! ## C43 -/

/-- **C43**: the covariance matrix of every list of samples (duplicates allowed) is symmetric positive definite once the diagonal
noise is added, for every kernel limbo ships and all hyper-parameters. -/
theorem C43_gram_positive_definite (hI : StdKernel I) (hn : 0 ≤ P.noise) (hk : KReach I P d k) (xs : List (List ℝ))
    (hx : ∀ x ∈ xs, x.length = d) :
    (Matrix.of fun i j : Fin xs.length => k.opIJ xs[i] xs[j] i j).PosDef := by
  have hK : Gp.KOK (E := ⟨I, P, nullMean, fun _ _ _ _ => 0⟩) k d := ⟨std_cov hI hk, noise_pos hk hn⟩
  have hpd := Gp.gram_pd hK hx
  have e : (Matrix.of fun i j : Fin xs.length => k.opIJ xs[i] xs[j] i j) = toM xs.length (Gp.gramN (E := ⟨I, P, nullMean, fun _ _ _ _ => 0⟩) k xs) := by
    ext i j
    simp only [toM, Gp.gramN, Matrix.of_apply]
    rw [List.getD_eq_getElem _ _ i.2, List.getD_eq_getElem _ _ j.2]
    rfl
  rw [e]
  refine .of_dotProduct_mulVec_pos ?_ ?_
  · ext i j
    simp only [toM, Matrix.conjTranspose_apply, Matrix.of_apply, star_trivial]
    exact hpd.symm j j.2 i i.2
  · intro x hx0
    obtain ⟨i, hi⟩ := Function.ne_iff.1 hx0
    have := hpd.pos (fun a => if h : a < xs.length then x ⟨a, h⟩ else 0) ⟨i, i.2, by simpa using hi⟩
    simp only [Finset.sum_range, Fin.is_lt, dite_true] at this
    refine lt_of_lt_of_eq this ?_
    simp only [dotProduct, Matrix.mulVec, star_trivial, mul_sum, toM, Matrix.of_apply]
    exact sum_congr rfl fun a _ => sum_congr rfl fun b _ => by simp; ring

/-- every GP using one of limbo's kernels satisfies the assumptions of the GP theorems -/
theorem lawfulEnv_std {E : GpEnv} (hI : StdKernel E.K) (hn : 0 ≤ E.KP.noise) (hl : LltContract E.llt) : LawfulEnv E :=
  ⟨hl, hn, fun _ _ hk => std_cov hI hk⟩

example : (∀ x ∈ [[(1:ℝ), 2], [1, 2], [0, 1]], x.length = 2) ∧ KReach (matern32 (1:ℝ) 1) ⟨0, false⟩ 2 (BaseK.mk' ⟨0, false⟩ 2) :=
  ⟨by simp, .new⟩

/-! ## C44 -/

theorem setH_opIJ (P : KernelParams) (k : BaseK I) (p : List ℝ) (x y : List ℝ) (i j : Nat) :
    (k.setHParams P p).opIJ x y i j = I.kernel (I.setParams k.inner (p.take (I.paramsSize k.inner))) x y +
      if i = j then (k.setHParams P p).noise + 1e-8 else 0 := by
  unfold BaseK.opIJ; rw [setH_inner]

/-- **C44**: `grad(x, y, i, j)` is the vector of partial derivatives of the kernel value with respect to the hyper-parameters, noise
included: component `q` is the derivative along the `q`-th parameter. -/
theorem C44_kernel_gradient (hI : StdKernel I) (hk : KReach I P d k) (p : List ℝ) (hp : p.length = k.hParamsSize P) (q : Nat)
    (hq : q < p.length) (x y : List ℝ) (i j : Nat) :
    HasDerivAt (fun t => (k.setHParams P (p.set q t)).opIJ x y i j) ((k.setHParams P p).gradIJ P x y i j q) p[q] := by
  have hpar := std_params hI hk
  have hsize : ∀ p, I.paramsSize (I.setParams k.inner p) = I.paramsSize k.inner := fun p => (hpar.2.2.1 p).2
  have epq : p[q] = at' p q := by unfold at'; rw [List.getD_eq_getElem _ _ hq]
  rw [epq]
  simp only [setH_opIJ]
  have hinner : I.paramsSize (k.setHParams P p).inner = I.paramsSize k.inner := by rw [setH_inner, hsize]
  unfold BaseK.gradIJ
  rw [hinner]
  unfold BaseK.hParamsSize at hp
  have hnoise : ∀ p, (k.setHParams P p).noise = if P.optimizeNoise then Real.exp (2 * at' p (I.paramsSize k.inner)) else k.noise := by
    intro p
    unfold BaseK.setHParams BaseK.hParamsSize
    simp only
    split
    · rw [hsize]; simp
    · rfl
  simp only [hnoise]
  by_cases hqn : P.optimizeNoise = true ∧ q = I.paramsSize k.inner
  · rw [if_pos hqn]
    obtain ⟨ho, rfl⟩ := hqn
    simp only [ho, if_true]
    have ht : ∀ t, (p.set (I.paramsSize k.inner) t).take (I.paramsSize k.inner) = p.take (I.paramsSize k.inner) := by
      intro t
      apply List.ext_getElem?
      intro m
      simp only [List.getElem?_take, List.getElem?_set]
      split
      · rw [if_neg (by omega)]
      · rfl
    simp only [ht]
    by_cases hij : i = j
    · simp only [if_pos hij]
      have h1 := ((at'_deriv p _ (I.paramsSize k.inner) hq).const_mul 2).exp
      rw [at'_set_self p _ hq] at h1
      refine ((h1.add_const (1e-8)).const_add _).congr_deriv ?_
      simp only [if_true]; ring
    · simp only [if_neg hij]
      exact hasDerivAt_const _ _
  · rw [if_neg hqn]
    have hqs : q < I.paramsSize k.inner := by
      by_cases ho : P.optimizeNoise = true
      · rw [if_pos ho] at hp
        have : q ≠ I.paramsSize k.inner := fun h => hqn ⟨ho, h⟩
        omega
      · rw [if_neg ho] at hp; omega
    have hconst : ∀ t, at' (p.set q t) (I.paramsSize k.inner) = at' p (I.paramsSize k.inner) := by
      intro t; rw [at'_set _ _ _ _ hq, if_neg (by omega)]
    simp only [hconst]
    have ht : ∀ t, (p.set q t).take (I.paramsSize k.inner) = (p.take (I.paramsSize k.inner)).set q t := fun t => List.take_set.symm ▸ rfl
    simp only [ht]
    have hlen : (p.take (I.paramsSize k.inner)).length = I.paramsSize k.inner := take_len (by omega)
    have := std_deriv hI k.inner (p.take (I.paramsSize k.inner)) hlen q hqs x y
    rw [at'_take, if_pos hqs] at this
    rw [setH_inner]
    exact this.add_const _

/-! ## C45 -/

/-- **C45** for kernels: the parameters that were set are the ones reported; their number is `h_params_size()`; setting the reported
parameters changes nothing.  (A zero noise that is optimised has logarithm `-inf`, outside the real-number model.) -/
theorem C45_kernel_parameters (hI : StdKernel I) (hk : KReach I P d k) :
    (k.hParams P).length = k.hParamsSize P ∧
    (∀ p : List ℝ, p.length = k.hParamsSize P → (k.setHParams P p).hParams P = p) ∧
    ((P.optimizeNoise = true → 0 < P.noise) → k.setHParams P (k.hParams P) = k) := by
  have hpar := std_params hI hk
  have hsize : ∀ p, I.paramsSize (I.setParams k.inner p) = I.paramsSize k.inner := fun p => (hpar.2.2.1 p).2
  refine ⟨?_, ?_, ?_⟩
  · unfold BaseK.hParams BaseK.hParamsSize
    split
    · rw [List.length_append, hpar.1]; rfl
    · exact hpar.1
  · intro p hp
    unfold BaseK.hParamsSize at hp
    unfold BaseK.hParams
    rw [setH_inner, (hpar.2.2.1 _).1]
    by_cases ho : P.optimizeNoise = true
    · rw [if_pos ho] at hp ⊢
      have : (k.setHParams P p).noiseP = at' p (I.paramsSize k.inner) := by
        unfold BaseK.setHParams BaseK.hParamsSize
        simp only [ho, if_true]
        rw [hsize]; simp
      rw [this]
      unfold at'
      rw [List.getD_eq_getElem _ _ (by omega), List.take_append_getElem (by omega), List.take_of_length_le (by omega)]
    · rw [if_neg ho] at hp ⊢
      exact List.take_of_length_le (by omega)
  · intro hn
    have hin : (k.hParams P).take (I.paramsSize k.inner) = I.params k.inner := by
      unfold BaseK.hParams
      rw [← hpar.1]
      split
      · simp
      · simp
    have h1 : (k.setHParams P (k.hParams P)).inner = k.inner := by rw [setH_inner, hin, hpar.2.1]
    by_cases ho : P.optimizeNoise = true
    · have h2 : (k.setHParams P (k.hParams P)).noiseP = k.noiseP := by
        unfold BaseK.setHParams BaseK.hParamsSize BaseK.hParams
        simp only [ho, if_true]
        rw [hsize, Nat.add_sub_cancel]
        unfold at'
        rw [← hpar.1]
        simp
      have h3 : (k.setHParams P (k.hParams P)).noise = Real.exp (2 * (k.setHParams P (k.hParams P)).noiseP) := by
        unfold BaseK.setHParams
        simp only [ho, if_true]
      have h4 := noise_reach hk ho (hn ho)
      rw [h2, ← h4] at h3
      generalize k.setHParams P (k.hParams P) = k' at *
      cases k; cases k'
      simp only at h1 h2 h3
      rw [h1, h2, h3]
    · have h2 : (k.setHParams P (k.hParams P)).noise = k.noise ∧ (k.setHParams P (k.hParams P)).noiseP = k.noiseP := by
        unfold BaseK.setHParams
        simp only [ho]
        exact ⟨rfl, rfl⟩
      generalize k.setHParams P (k.hParams P) = k' at *
      cases k; cases k'
      simp only at h1 h2
      rw [h1, h2.1, h2.2]

/-- **C45** for kernels: giving one kernel object the parameters reported by another of the same class and dimension makes it equal to
that other one. -/
theorem C45_kernel_copy (hI : StdKernel I) (hn : P.optimizeNoise = true → 0 < P.noise) {k' : BaseK I} (hk : KReach I P d k)
    (hk' : KReach I P d k') : k'.setHParams P (k.hParams P) = k := by
  rw [std_over_new hI hk', ← std_over_new hI hk]
  exact (C45_kernel_parameters hI hk).2.2 hn

/-- **C45** for mean functions: the same; the parameters reported by one object, given to any other of the same class and dimension (in
particular to itself), make it the same function. -/
theorem C45_mean_parameters {M : MeanImpl} (hM : StdMean M) {s : M.St} (hs : MReach M d s) :
    (M.hParams s).length = M.hSize s ∧ (∀ p : List ℝ, p.length = M.hSize s → M.hParams (M.setH s p) = p) ∧
    (∀ s', MReach M d s' → ∀ x mo, ∀ c < d, M.op (M.setH s' (M.hParams s)) x mo c = M.op s x mo c) := by
  have h := std_mean_ok hM
  exact ⟨h.len d s hs, fun p hp => h.get_set d s p hs hp, fun s' hs' x mo c hc => h.set_get d s s' x mo c hs hs' hc⟩

example : StdMean (functionArd (constMean 1)) ∧
    MReach (functionArd (constMean 1)) 1 ((functionArd (constMean 1)).setH ((functionArd (constMean 1)).new 1) [2, 3, 5]) :=
  ⟨.ard (.const 1), .set _ .new (by
    show FArdSt.hSize (FArdSt.mk' 1) ≤ 3
    simp [FArdSt.hSize, FArdSt.mk', FArdSt.setH, constMean])⟩

/-- **C44** at the kernel's own parameters: the gradient reported by `k` is the derivative of its values at `k.h_params()`. -/
theorem C44_gradient_at_current_parameters (hI : StdKernel I) (hk : KReach I P d k) (hn : P.optimizeNoise = true → 0 < P.noise) (q : Nat)
    (hq : q < (k.hParams P).length) (x y : List ℝ) (i j : Nat) :
    HasDerivAt (fun t => (k.setHParams P ((k.hParams P).set q t)).opIJ x y i j) (k.gradIJ P x y i j q) (k.hParams P)[q] := by
  have h45 := C45_kernel_parameters hI hk
  have := C44_kernel_gradient hI hk (k.hParams P) h45.1 q hq x y i j
  rwa [h45.2.2 hn] at this

/-! ## C46 -/

/-- **C46**: `NullFunction` is zero, `Constant` its parameter (at first its constant, then whatever was last set), and `Data` the average of the observations the GP holds, after any
history of GP calls. -/
theorem C46_mean_values {E : GpEnv} (hE : LawfulEnv E) (u : ℝ × ℝ) (ops : List (Gp.Op × (Nat → Nat → ℝ))) (hs : ∀ o ∈ ops, o.1.Sane)
    {st : GpState E} (hr : Gp.run (Gp.new E u) ops = some st) (hne : (GpAbs.init.run ops).xs ≠ []) {din dout : Nat}
    (hd : DataSet (GpAbs.init.run ops).xs (GpAbs.init.run ops).ys din dout) (v : List ℝ) (c : Nat) (hc : c < dout) :
    nullMean.op dout v (Gp.meanObservation st) c = 0 ∧
    (∀ k : ℝ, (constMean k).op ((constMean k).new dout) v (Gp.meanObservation st) c = k) ∧
    (∀ (k : ℝ) (m : (constMean k).St), MReach (constMean k) dout m → (constMean k).hParams m = [(constMean k).op m v (Gp.meanObservation st) c] ∧
      ∀ k' : ℝ, (constMean k).op ((constMean k).setH m [k']) v (Gp.meanObservation st) c = k') ∧
    dataMean.op () v (Gp.meanObservation st) c
      = (((GpAbs.init.run ops).ys.map fun y => y.getD c 0).sum / (GpAbs.init.run ops).ys.length) := by
  refine ⟨rfl, fun _ => rfl, fun _ _ _ => ⟨rfl, fun _ => rfl⟩, ?_⟩
  have T := Gp.track_run hE ops (Gp.track_new u) hs hr
  obtain ⟨din', dout', hh⟩ := T.ne hne
  have hyne : (GpAbs.init.run ops).ys ≠ [] := by
    intro e; have := hd.same; rw [e] at this
    exact hne (List.length_eq_zero_iff.1 this.symm)
  obtain ⟨y, hy⟩ := List.exists_mem_of_ne_nil _ hyne
  have : dout' = dout := by rw [← hh.data.outputs y hy, ← hd.outputs y hy]
  subst this
  show Gp.meanObservation st c = _
  rw [Gp.meanObservation_eq hh]
  simp only [if_pos hc]
  rfl

/-- **C46**: `FunctionARD` starts as the mean it wraps. -/
theorem C46_function_ard_starts_as_inner {M : MeanImpl} (hM : StdMean M) (d : Nat) (x : List ℝ) (mo : Nat → ℝ) (c : Nat) (hc : c < d) :
    (functionArd M).op ((functionArd M).new d) x mo c = M.op (M.new d) x mo c := by
  have hok := std_mean_ok hM
  have hr := fard_reach hok (MReach.new (M := functionArd M) (d := d))
  have hlen := hok.len d (M.new d) .new
  show FArdSt.op (FArdSt.mk' d) x mo c = _
  unfold FArdSt.op
  have hd : (FArdSt.mk' d : FArdSt M).d = d := rfl
  rw [hd]
  have htr : ∀ j < d + 1, (FArdSt.mk' d : FArdSt M).tr c j = if j = c then 1 else 0 := by
    intro j hj
    show (if c < d ∧ j < d + 1 then at' _ (c * (d + 1) + j) else _) = _
    rw [if_pos ⟨hc, hj⟩, at'_append_left _ _ _ (by simpa using fard_pos hc hj)]
    unfold at'
    rw [List.getD_eq_getElem _ _ (by simpa using fard_pos hc hj)]
    simp only [List.getElem_map, List.getElem_range]
    by_cases hjc : j = c
    · subst hjc
      rw [if_pos ⟨j, hc, by ring⟩, if_pos rfl]
    · rw [if_neg, if_neg hjc]
      rintro ⟨i, hi, e⟩
      have e1 : i * (d + 2) = i * (d + 1) + i := by ring
      rw [e1] at e
      have h1 : (c * (d + 1) + j) / (d + 1) = c := by
        rw [Nat.add_comm, Nat.add_mul_div_right _ _ (by omega), Nat.div_eq_of_lt hj]; omega
      have h2 : (i * (d + 1) + i) / (d + 1) = i := by
        rw [Nat.add_comm, Nat.add_mul_div_right _ _ (by omega), Nat.div_eq_of_lt (by omega)]; omega
      rw [e, h2] at h1
      subst h1
      omega
  have hinner : ∀ j < d, M.op (FArdSt.mk' d : FArdSt M).inner x mo j = M.op (M.new d) x mo j := by
    intro j hj
    show M.op (if M.hSize (M.new d) > 0 then M.setH (M.new d) _ else M.new d) x mo j = _
    split
    · rename_i h0
      rw [← hok.set_get d (M.new d) (M.new d) x mo j .new .new hj]
      congr 2
      simp only [List.length_append, hlen, Nat.add_sub_cancel]
      rw [List.drop_append_of_le_length (le_refl _), List.drop_of_length_le (le_refl _), List.nil_append]
    · rfl
  rw [sum_eq_single c]
  · rw [htr c (by omega), if_pos rfl, one_mul, if_pos hc, hinner c hc]
  · intro j hj hne
    rw [htr j (mem_range.1 hj), if_neg hne, zero_mul]
  · intro h; exact absurd (mem_range.2 (by omega)) h

/-- **C46**: with parameters `p` (rows `W_c b_c`, then the parameters of the wrapped mean), `FunctionARD` is `W m(x) + b`. -/
theorem C46_function_ard_value {M : MeanImpl} (hM : StdMean M) {s : (functionArd M).St} (hs : MReach (functionArd M) d s) (p inner : List ℝ)
    (hp : p.length = d * (d + 1)) (hi : inner.length = M.hSize (FArdSt.inner s)) (x : List ℝ) (mo : Nat → ℝ) (c : Nat) (hc : c < d) :
    (functionArd M).op ((functionArd M).setH s (p ++ inner)) x mo c
      = ∑ j : Fin d, p.getD (c * (d + 1) + j) 0 * M.op (M.setH (FArdSt.inner s) inner) x mo j + p.getD (c * (d + 1) + d) 0 := by
  have hok := std_mean_ok hM
  obtain ⟨hd, hri, hl, htr⟩ := fard_reach hok hs
  show FArdSt.op (FArdSt.setH s (p ++ inner)) x mo c = _
  unfold FArdSt.op
  have hdd : (FArdSt.setH s (p ++ inner)).d = d := hd
  rw [hdd, sum_range_succ]
  have htr : ∀ j < d + 1, (FArdSt.setH s (p ++ inner)).tr c j = p.getD (c * (d + 1) + j) 0 := by
    intro j hj
    show (if c < FArdSt.d s ∧ j < FArdSt.d s + 1 then at' (p ++ inner) (c * (FArdSt.d s + 1) + j) else _) = _
    rw [hd, if_pos ⟨hc, hj⟩, at'_append_left _ _ _ (by rw [hp]; exact fard_pos hc hj)]
    rfl
  rw [htr d (by omega), if_neg (by omega), mul_one, Finset.sum_range]
  congr 1
  apply sum_congr rfl
  intro j _
  rw [htr j (by omega), if_pos j.2]
  congr 1
  show M.op (if M.hSize (FArdSt.inner s) > 0 then M.setH (FArdSt.inner s) _ else FArdSt.inner s) x mo j = _
  split
  · congr 2
    rw [List.length_append, hi, Nat.add_sub_cancel, List.drop_left]
  · rename_i h0
    have h00 : M.hSize (FArdSt.inner s) = 0 := by omega
    have e1 : inner = [] := List.length_eq_zero_iff.1 (by rw [hi]; omega)
    have e2 : M.hParams (FArdSt.inner s) = [] := List.length_eq_zero_iff.1 (by rw [hok.len d _ hri, h00])
    rw [← hok.set_get d _ _ x mo j hri hri j.2, e1, e2]

/-- **C46**: the gradient of `FunctionARD` (and of `Constant`) is its derivative along every parameter, for every output. -/
theorem C46_mean_gradient {M : MeanImpl} (hM : StdMean M) {s : M.St} (hs : MReach M d s) (p : List ℝ) (hp : p.length = M.hSize s) (q : Nat)
    (hq : q < p.length) (x : List ℝ) (mo : Nat → ℝ) :
    ∃ g, M.grad (M.setH s p) x mo = some g ∧ ∀ c < d, HasDerivAt (fun t => M.op (M.setH s (p.set q t)) x mo c) (g c q) p[q] := by
  obtain ⟨g, h1, h2⟩ := (std_mean_ok hM).deriv d s p x mo q hs hp (by omega)
  refine ⟨g, h1, fun c hc => ?_⟩
  have : p[q] = at' p q := by unfold at'; rw [List.getD_eq_getElem _ _ hq]
  rw [this]; exact h2 c hc

end Limbo
