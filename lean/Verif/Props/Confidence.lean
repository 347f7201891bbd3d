import Verif.Lemmas.Rkhs
import Verif.Props.GpParams
import Verif.Props.MultiGp

/-!
C103: how far the predictions of a GP can be from the function that produced its data.
-/

namespace Limbo

open Gp

variable {E : GpEnv} {A : GpAbs} {st : GpState E} {din dout : Nat}

theorem reach_kernel (hE : LawfulEnv E) (hr : GpReach E A st) (hd : DataSet A.xs A.ys din dout) :
    Covariance st.kf.op din ∧ 0 ≤ st.kf.noise := by
  have T := hr.tracks hE
  have hh := T.hasData hd
  rcases T.reach.1 with h | h
  · rw [hh.dimIn] at h; omega
  · rw [hh.dimIn] at h
    exact ⟨by rw [op_fun]; exact hE.cov _ _ h, noise_pos h hE.noise⟩

/-- the variance reported is the posterior variance up to `DBL_EPSILON`, plus the noise -/
theorem reportedVar_ge (k : List ℝ → List ℝ → ℝ) (noise : ℝ) (xs : List (List ℝ)) (v : List ℝ) :
    postVar k (noise + 1e-8) xs v ≤ (if postVar k (noise + 1e-8) xs v ≤ 2 ^ (-52 : ℤ) then 0 else postVar k (noise + 1e-8) xs v) + 2 ^ (-52 : ℤ) := by
  have h0 : (0 : ℝ) < 2 ^ (-52 : ℤ) := by positivity
  split <;> linarith

/-- **C103**: if the data are values of a function that is the prior mean plus a kernel combination of norm at most `B`, then everywhere the predicted mean is
within `B` predicted standard deviations of that function: the variance reported without its noise term, and with `DBL_EPSILON` added because smaller
variances are reported as zero. -/
theorem C103_error_bound (hE : LawfulEnv E) (hr : GpReach E A st) (hA : A.UpToDate) (hd : DataSet A.xs A.ys din dout) (c : Nat) (hc : c < dout)
    (B : ℝ) (hB : 0 ≤ B) (f : List ℝ → ℝ) (hf : InKernelBall st.kf.op (fun v => meanFn st.mf A.ys dout v c) din B f)
    (hy : ∀ (i : Nat) x y, A.xs[i]? = some x → A.ys[i]? = some y → y[c]? = some (f x)) (v : List ℝ) (hv : v.length = din) :
    ∃ m var, query st v = some (m, var) ∧ |m c - f v| ≤ B * √(var - st.kf.noise + 2 ^ (-52 : ℤ)) := by
  obtain ⟨hne, hk, -, ha⟩ := hA
  obtain ⟨hcov, hn⟩ := reach_kernel hE hr hd
  obtain ⟨m, hm, hm'⟩ := C27_mu_is_posterior_mean hE hr hne ha hd v
  have hs := C27_sigma_is_posterior_variance hE hr hne hk v
  refine ⟨m, _, by rw [C28_query_is_mu_sigma, hm, hs]; rfl, ?_⟩
  rw [hm' c hc, add_sub_cancel_right]
  have hyi : ∀ i : Fin A.xs.length, at' (A.ys.getD i []) c = f A.xs[i] := by
    intro i
    have hl : (i : Nat) < A.ys.length := by rw [hd.same]; exact i.2
    have : A.ys[(i : Nat)][c]? = some (f A.xs[i]) := hy i A.xs[i] A.ys[(i : Nat)] (List.getElem?_eq_getElem i.2) (List.getElem?_eq_getElem hl)
    rw [List.getD_eq_getElem _ _ hl, at', List.getD_eq_getElem?_getD, this]
    rfl
  obtain ⟨-, h2⟩ := postMean_confidence (s := st.kf.noise + 1e-8) hcov (by positivity) hd.inputs hB hf hyi v hv
  refine h2.trans (mul_le_mul_of_nonneg_left (Real.sqrt_le_sqrt (reportedVar_ge _ _ _ _)) hB)

/-- **C103**: in particular, if the noise is at least `DBL_EPSILON`, within `B` reported standard deviations. -/
theorem C103_error_bars (hE : LawfulEnv E) (hr : GpReach E A st) (hA : A.UpToDate) (hd : DataSet A.xs A.ys din dout) (c : Nat) (hc : c < dout)
    (B : ℝ) (hB : 0 ≤ B) (f : List ℝ → ℝ) (hf : InKernelBall st.kf.op (fun v => meanFn st.mf A.ys dout v c) din B f)
    (hy : ∀ (i : Nat) x y, A.xs[i]? = some x → A.ys[i]? = some y → y[c]? = some (f x)) (v : List ℝ) (hv : v.length = din)
    (hn : 2 ^ (-52 : ℤ) ≤ st.kf.noise) :
    ∃ m var, query st v = some (m, var) ∧ f v ≤ m c + B * √var ∧ m c - B * √var ≤ f v := by
  obtain ⟨m, var, h1, h2⟩ := C103_error_bound hE hr hA hd c hc B hB f hf hy v hv
  have := abs_le.1 (h2.trans (mul_le_mul_of_nonneg_left (Real.sqrt_le_sqrt (by linarith : _ ≤ var)) hB))
  exact ⟨m, var, h1, by linarith [this.1], by linarith [this.2]⟩

open Classical in
/-- **C103**: at a point that was observed `n` times the reported variance is at most `noise + (noise + 1e-8) / n`, and the predicted mean is within
`B sqrt((noise + 1e-8) / n)` of the function. -/
theorem C103_at_observed_points (hE : LawfulEnv E) (hr : GpReach E A st) (hA : A.UpToDate) (hd : DataSet A.xs A.ys din dout) (v : List ℝ)
    (hv : v ∈ A.xs) :
    ∃ m var, query st v = some (m, var) ∧ var ≤ st.kf.noise + (st.kf.noise + 1e-8) / A.xs.count v ∧
      ∀ (c : Nat) (B : ℝ) (f : List ℝ → ℝ), c < dout → 0 ≤ B → InKernelBall st.kf.op (fun v => meanFn st.mf A.ys dout v c) din B f →
        (∀ (i : Nat) x y, A.xs[i]? = some x → A.ys[i]? = some y → y[c]? = some (f x)) →
        |m c - f v| ≤ B * √((st.kf.noise + 1e-8) / A.xs.count v) := by
  obtain ⟨hne, hk, -, ha⟩ := hA
  obtain ⟨hcov, hn⟩ := reach_kernel hE hr hd
  obtain ⟨m, hm, hm'⟩ := C27_mu_is_posterior_mean hE hr hne ha hd v
  have hs := C27_sigma_is_posterior_variance hE hr hne hk v
  have hcount : 0 < A.xs.count v := List.count_pos_iff.2 hv
  have hrep := postVar_repeated (s := st.kf.noise + 1e-8) hcov (by positivity) hd.inputs v hcount
  refine ⟨m, _, by rw [C28_query_is_mu_sigma, hm, hs]; rfl, ?_, ?_⟩
  · have : 0 ≤ (st.kf.noise + 1e-8) / A.xs.count v := by positivity
    split <;> linarith
  · intro c B f hc hB hf hy
    rw [hm' c hc]
    have hyi : ∀ i : Fin A.xs.length, at' (A.ys.getD i []) c = f A.xs[i] := by
      intro i
      have hl : (i : Nat) < A.ys.length := by rw [hd.same]; exact i.2
      have : A.ys[(i : Nat)][c]? = some (f A.xs[i]) := hy i A.xs[i] A.ys[(i : Nat)] (List.getElem?_eq_getElem i.2) (List.getElem?_eq_getElem hl)
      rw [List.getD_eq_getElem _ _ hl, at', List.getD_eq_getElem?_getD, this]
      rfl
    obtain ⟨-, h2⟩ := postMean_confidence (s := st.kf.noise + 1e-8) hcov (by positivity) hd.inputs hB hf hyi v (hd.inputs v hv)
    exact h2.trans (mul_le_mul_of_nonneg_left (Real.sqrt_le_sqrt hrep) hB)

open Classical in
/-- **C103**: at a point near to `n` observed ones - those with a property `Q`, all at a squared kernel distance of at most `w` - the reported variance is at
most `noise + (noise + 1e-8) / n + w`, and the predicted mean is within `B sqrt((noise + 1e-8) / n + w)` of the function. -/
theorem C103_near_observed_points (hE : LawfulEnv E) (hr : GpReach E A st) (hA : A.UpToDate) (hd : DataSet A.xs A.ys din dout) (v : List ℝ)
    (hv : v.length = din) (Q : List ℝ → Prop) {w : ℝ} (hw : 0 ≤ w)
    (hQ : ∀ x, x.length = din → Q x → st.kf.op x x - 2 * st.kf.op x v + st.kf.op v v ≤ w) {n : Nat} (hn : n = A.xs.countP fun x => decide (Q x)) (hn0 : 0 < n) :
    ∃ m var, query st v = some (m, var) ∧ var ≤ st.kf.noise + (st.kf.noise + 1e-8) / n + w ∧
      ∀ (c : Nat) (B : ℝ) (f : List ℝ → ℝ), c < dout → 0 ≤ B → InKernelBall st.kf.op (fun v => meanFn st.mf A.ys dout v c) din B f →
        (∀ (i : Nat) x y, A.xs[i]? = some x → A.ys[i]? = some y → y[c]? = some (f x)) →
        |m c - f v| ≤ B * √((st.kf.noise + 1e-8) / n + w) := by
  subst hn
  obtain ⟨hne, hk, -, ha⟩ := hA
  obtain ⟨hcov, hns⟩ := reach_kernel hE hr hd
  obtain ⟨m, hm, hm'⟩ := C27_mu_is_posterior_mean hE hr hne ha hd v
  have hs := C27_sigma_is_posterior_variance hE hr hne hk v
  have hrep := postVar_near (s := st.kf.noise + 1e-8) hcov (by positivity) hd.inputs v Q hQ hn0
  refine ⟨m, _, by rw [C28_query_is_mu_sigma, hm, hs]; rfl, ?_, ?_⟩
  · have : 0 ≤ (st.kf.noise + 1e-8) / ((A.xs.countP fun x => decide (Q x) : Nat) : ℝ) := by positivity
    split <;> linarith
  · intro c B f hc hB hf hy
    rw [hm' c hc]
    have hyi : ∀ i : Fin A.xs.length, at' (A.ys.getD i []) c = f A.xs[i] := by
      intro i
      have hl : (i : Nat) < A.ys.length := by rw [hd.same]; exact i.2
      have : A.ys[(i : Nat)][c]? = some (f A.xs[i]) := hy i A.xs[i] A.ys[(i : Nat)] (List.getElem?_eq_getElem i.2) (List.getElem?_eq_getElem hl)
      rw [List.getD_eq_getElem _ _ hl, at', List.getD_eq_getElem?_getD, this]
      rfl
    obtain ⟨-, h2⟩ := postMean_confidence (s := st.kf.noise + 1e-8) hcov (by positivity) hd.inputs hB hf hyi v hv
    exact h2.trans (mul_le_mul_of_nonneg_left (Real.sqrt_le_sqrt hrep) hB)

/-! A concrete case: `kernel::Exp` with noise 0.01 and `mean::NullFunction`; the function `3 k(1/4, ·)` observed at 0 (twice) and 1/2. -/

noncomputable def exBallEnv : GpEnv := ⟨expKernel 1 1, ⟨0.01, false⟩, nullMean, llt_contract_satisfiable.choose⟩

theorem exBallEnv_lawful : LawfulEnv exBallEnv :=
  lawfulEnv_std (.exp one_pos one_pos) (by show (0:ℝ) ≤ 0.01; norm_num) llt_contract_satisfiable.choose_spec

noncomputable def exBallF (v : List ℝ) : ℝ := 3 * (BaseK.mk' exBallEnv.KP 1 : BaseK exBallEnv.K).op [1 / 4] v

theorem exBall : InKernelBall (BaseK.mk' exBallEnv.KP 1 : BaseK exBallEnv.K).op (fun _ => 0) 1 3 exBallF := by
  refine ⟨1, fun _ => [1 / 4], fun _ => 3, fun _ => rfl, fun v _ => by simp [exBallF], ?_⟩
  have : (BaseK.mk' exBallEnv.KP 1 : BaseK exBallEnv.K).op [1 / 4] [1 / 4] = 1 := by
    rw [op_fun]; exact exp_self _
  simp only [Finset.univ_unique, Finset.sum_const, Finset.card_singleton, one_smul, this]
  norm_num

example : ∃ A st, GpReach exBallEnv A st ∧ A.UpToDate ∧ DataSet A.xs A.ys 1 1 ∧ A.xs = [[0], [1 / 2], [0]] ∧
    InKernelBall st.kf.op (fun v => meanFn st.mf A.ys 1 v 0) 1 3 exBallF ∧
    (∀ (i : Nat) x y, A.xs[i]? = some x → A.ys[i]? = some y → y[0]? = some (exBallF x)) ∧ 2 ^ (-52 : ℤ) ≤ st.kf.noise := by
  have hd : DataSet [[0], [1 / 2], [0]] [[exBallF [0]], [exBallF [1 / 2]], [exBallF [0]]] 1 1 :=
    ⟨by simp, by simp, by simp, by simp, by norm_num, by norm_num⟩
  obtain ⟨st, h, _⟩ := track_compute exBallEnv_lawful (fun _ _ => 7) (track_new (E := exBallEnv) (0, 0)) hd true
  have hk : st.kf = BaseK.mk' exBallEnv.KP 1 := (compute_functors h).1.1.trans ((adaptDims_dims _ _ _).2.2.2.1 (by show (-1 : Int) ≠ 1; norm_num))
  refine ⟨_, st, (GpReach.new (E := exBallEnv) (0, 0)).step (op := .compute _ _ true) (junk := fun _ _ => 7) trivial h, ⟨by simp [GpAbs.step], rfl, rfl, rfl⟩, hd, rfl, ?_, ?_, ?_⟩
  · rw [hk]; exact exBall
  · intro i x y hx hy
    simp only [GpAbs.step] at hx hy
    match i with
    | 0 => cases hx; cases hy; rfl
    | 1 => cases hx; cases hy; rfl
    | 2 => cases hx; cases hy; rfl
    | n + 3 => cases hx
  · rw [hk]
    show (2 : ℝ) ^ (-52 : ℤ) ≤ 0.01
    norm_num

end Limbo
