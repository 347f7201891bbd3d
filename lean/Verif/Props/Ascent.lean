import Verif.Lemmas.Ascent

/-!
C98, C99: gradient ascent and Adam in exact arithmetic: convergence, and the trajectory in closed form.
-/

namespace Limbo.Ascent

variable {n : ℕ}

/-- **C98**: gradient ascent without momentum (with or without the Nesterov option) on a concave objective of curvature at most `L`, with a learning
rate of at most `1/L`, bounded or not: the run ends, the result is feasible and not worse than the (clamped) starting point, and after `T` iterations it
is below any feasible point `y` by at most `|start - y|² / (2 alpha T)`.  If it stopped before its iterations were used up, it is below `y` by at most
`(eps |result - y| + eps²/2) / alpha`. -/
theorem C98_gradient_ascent_converges (P : GaParams XR) (a e L : ℝ) (ha : P.alpha = XR.fin a) (hg : P.gamma = XR.fin 0)
    (he : P.epsStop = XR.fin e) (h0 : 0 < a) (hL : a * L ≤ 1) (f : ObjFn XR) (F : (Fin n → ℝ) → ℝ) (G : (Fin n → ℝ) → Fin n → ℝ) (b : Bool)
    (hf : Computes f F G) (hc : ConcaveWith b F G) (hs : SmoothWith b L F G) (x0 : Fin n → ℝ) :
    ∃ s x, gaRun P f (vec x0) b = some s ∧ s.params = vec x ∧ Feasible b x ∧ F (box b x0) ≤ F x ∧
      (∀ y, Feasible b y → s.trace.length * (F y - F x) ≤ sqDist (box b x0) y / (2 * a)) ∧
      (s.trace.length < P.iterations.toNat → ∀ y, Feasible b y → F y - F x ≤ (e * Real.sqrt (sqDist x y) + e ^ 2 / 2) / a) := by
  obtain ⟨T, hT, hrun, hstop⟩ := gaRun_real (b := b) ha hg hf x0 ⟨le_refl _, by norm_num, h0.le⟩
  generalize htr : gaRTraj P.nesterov b a 0 G x0 = tr at hrun hstop
  have hfe : ∀ t, Feasible b (tr t).p := fun t => htr ▸ gaRTraj_feasible _ x0 t
  have hstep : ∀ t, (tr (t + 1)).p = box b fun i => (tr t).p i + a * G (tr t).p i := by
    intro t
    have hq : gaRQuery P.nesterov b 0 (tr t) = (tr t).p := by
      unfold gaRQuery
      split
      · simp only [zero_mul, add_zero]
        exact box_of_feasible (hfe t)
      · rfl
    rw [← htr]
    show box b (fun i => _ + (0 * _ + a * G (gaRQuery P.nesterov b 0 (gaRTraj P.nesterov b a 0 G x0 t)) i)) = _
    rw [htr, hq]
    simp only [zero_mul, zero_add]
  have hone : ∀ t y, Feasible b y → 2 * a * (F y - F (tr (t + 1)).p) ≤ sqDist (tr t).p y - sqDist (tr (t + 1)).p y :=
    fun t y hy => ascent_step h0 hL hc hs (hfe t) hy _ (hstep t)
  have hself : ∀ x : Fin n → ℝ, sqDist x x = 0 := fun x => by simp [sqDist]
  have hnn : ∀ x y : Fin n → ℝ, 0 ≤ sqDist x y := fun x y => Finset.sum_nonneg fun i _ => sq_nonneg _
  have hmono : ∀ t, F (tr t).p ≤ F (tr (t + 1)).p := by
    intro t
    have := hone t _ (hfe t)
    rw [hself] at this
    have h2 := hnn (tr (t + 1)).p (tr t).p
    by_contra hlt
    have : 0 < 2 * a * (F (tr t).p - F (tr (t + 1)).p) := mul_pos (by linarith) (by linarith)
    linarith
  have hstart : (tr 0).p = box b x0 := by rw [← htr]; rfl
  have hsum : ∀ y, Feasible b y → ∀ t : ℕ, 2 * a * (t * (F y - F (tr t).p)) ≤ sqDist (box b x0) y - sqDist (tr t).p y := by
    intro y hy t
    induction t with
    | zero => rw [hstart]; simp
    | succ t ih =>
      have h1 := hone t y hy
      have h2 := hmono t
      have h3 : (0 : ℝ) ≤ t := Nat.cast_nonneg t
      have h4 : 2 * a * (t * (F y - F (tr (t + 1)).p)) ≤ 2 * a * (t * (F y - F (tr t).p)) :=
        mul_le_mul_of_nonneg_left (mul_le_mul_of_nonneg_left (by linarith) h3) (by linarith)
      push_cast
      nlinarith
  have hlen : ((List.range T).map fun i => vec (gaRQuery P.nesterov b 0 (tr i))).length = T := by simp
  refine ⟨_, (tr T).p, hrun, rfl, hfe T, ?_, fun y hy => ?_, fun hlt y hy => ?_⟩
  · rw [← hstart]
    exact monotone_nat_of_le_succ (f := fun t => F (tr t).p) hmono (Nat.zero_le T)
  · show (((List.range T).map fun i => vec (gaRQuery P.nesterov b 0 (tr i))).length : ℝ) * _ ≤ _
    rw [hlen, le_div_iff₀ (by linarith)]
    have := hsum y hy T
    have h2 := hnn (tr T).p y
    linarith
  · have hlt' : T < P.iterations.toNat := by
      have : ((List.range T).map fun i => vec (gaRQuery P.nesterov b 0 (tr i))).length < P.iterations.toNat := hlt
      omega
    obtain ⟨T', rfl, hst⟩ := hstop hlt'
    rw [he, XR.lt_fin] at hst
    have h1 := hone T' y hy
    rw [le_div_iff₀ h0]
    -- |p - y|² - |p' - y|² = |p - p'|² + 2 (p - p')·(p' - y) ≤ e² + 2 e |p' - y|
    have h2 : sqDist (tr T').p y - sqDist (tr (T' + 1)).p y = sqDist (tr T').p (tr (T' + 1)).p +
        2 * ∑ i, ((tr T').p i - (tr (T' + 1)).p i) * ((tr (T' + 1)).p i - y i) := by
      unfold sqDist
      rw [← Finset.sum_sub_distrib, Finset.mul_sum, ← Finset.sum_add_distrib]
      exact Finset.sum_congr rfl fun i _ => by ring
    have h3 : ∑ i, ((tr T').p i - (tr (T' + 1)).p i) * ((tr (T' + 1)).p i - y i) ≤
        Real.sqrt (sqDist (tr T').p (tr (T' + 1)).p) * Real.sqrt (sqDist (tr (T' + 1)).p y) := by
      unfold sqDist
      exact Real.sum_mul_le_sqrt_mul_sqrt _ _ _
    have h4 := Real.sqrt_nonneg (sqDist (tr T').p (tr (T' + 1)).p)
    have h5 : sqDist (tr T').p (tr (T' + 1)).p ≤ e ^ 2 := by
      rw [← Real.sq_sqrt (hnn (tr T').p (tr (T' + 1)).p)]
      exact pow_le_pow_left₀ h4 hst.le 2
    have h6 := mul_le_mul_of_nonneg_right hst.le (Real.sqrt_nonneg (sqDist (tr (T' + 1)).p y))
    linarith

/-- **C98**: the trajectory of gradient ascent, bounded or not, with or without momentum: the step after visiting the points `q 0, …, q t` is `alpha` times
the gradients seen so far, each iteration back weighted with a further factor `gamma`; with the Nesterov option the next gradient is taken where the momentum alone would lead. -/
theorem C98_momentum (P : GaParams XR) (a γ : ℝ) (ha : P.alpha = XR.fin a) (hg : P.gamma = XR.fin γ) (h0 : 0 ≤ a) (h1 : 0 ≤ γ ∧ γ < 1)
    (f : ObjFn XR) (F : (Fin n → ℝ) → ℝ) (G : (Fin n → ℝ) → Fin n → ℝ) (hf : Computes f F G) (b : Bool) (x0 : Fin n → ℝ) :
    ∃ (s : GaState XR) (p q : ℕ → Fin n → ℝ), gaRun P f (vec x0) b = some s ∧ s.trace.length ≤ P.iterations.toNat ∧
      s.params = vec (p s.trace.length) ∧ s.trace = (List.range s.trace.length).map (fun t => vec (q t)) ∧ p 0 = box b x0 ∧
      (∀ t, q t = if P.nesterov then box b fun i => p t i + γ * (a * decaying γ (fun j => G (q j) i) t) else p t) ∧
      ∀ t, p (t + 1) = box b fun i => p t i + a * decaying γ (fun j => G (q j) i) (t + 1) := by
  obtain ⟨T, hT, hrun, -⟩ := gaRun_real (b := b) ha hg hf x0 ⟨h1.1, h1.2, h0⟩
  generalize htr : gaRTraj P.nesterov b a γ G x0 = tr at hrun
  have hsucc : ∀ t, tr (t + 1) = gaRStep P.nesterov b a γ G (tr t) := fun t => by rw [← htr]; rfl
  have hv : ∀ t i, (tr t).v i = a * decaying γ (fun j => G (gaRQuery P.nesterov b γ (tr j)) i) t := by
    intro t i
    induction t with
    | zero => rw [← htr]; simp [gaRTraj, decaying]
    | succ t ih =>
      rw [decaying_succ, hsucc]
      show γ * (tr t).v i + a * _ = _
      rw [ih]
      ring
  have hlen : ((List.range T).map fun i => vec (gaRQuery P.nesterov b γ (tr i))).length = T := by simp
  refine ⟨_, fun t => (tr t).p, fun t => gaRQuery P.nesterov b γ (tr t), hrun, ?_, ?_, ?_, ?_, fun t => ?_, fun t => ?_⟩
  · simpa using hT
  · simp only [hlen]
  · simp only [hlen]
  · rw [← htr]; rfl
  · simp only [← hv]
    rfl
  · show (tr (t + 1)).p = _
    have e : (tr (t + 1)).p = box b fun i => (tr t).p i + (tr (t + 1)).v i := by rw [hsucc]; rfl
    rw [e]
    congr 1
    funext i
    rw [hv]

/-- **C98**: gradient ascent rejects exactly the learning rates and momenta outside `alpha ≥ 0`, `0 ≤ gamma < 1`. -/
theorem C98_parameters_checked (P : GaParams XR) (a γ : ℝ) (ha : P.alpha = XR.fin a) (hg : P.gamma = XR.fin γ)
    (f : ObjFn XR) (F : (Fin n → ℝ) → ℝ) (G : (Fin n → ℝ) → Fin n → ℝ) (hf : Computes f F G) (b : Bool) (x0 : Fin n → ℝ) :
    (gaRun P f (vec x0) b).isSome = true ↔ 0 ≤ γ ∧ γ < 1 ∧ 0 ≤ a := by
  constructor
  · intro h
    unfold gaRun at h
    split at h
    · next hc =>
      rw [ha, hg] at hc
      simp only [XR.lit_eq, Bool.and_eq_true, XR.le_fin, XR.lt_fin] at hc
      push_cast at hc
      exact ⟨hc.1.1, hc.1.2, hc.2⟩
    · cases h
  · intro h
    obtain ⟨T, -, hrun, -⟩ := gaRun_real (b := b) ha hg hf x0 h
    rw [hrun]
    rfl

/-- The objective `-(x - 2)²` in one dimension, on the box: the hypotheses of the convergence theorem hold with `L = 2` and `alpha = 1/2`. -/
example : ∃ f : ObjFn XR, Computes (n := 1) f (fun x => -(x 0 - 2) ^ 2) (fun x _ => -2 * (x 0 - 2)) ∧
    ConcaveWith (n := 1) true (fun x => -(x 0 - 2) ^ 2) (fun x _ => -2 * (x 0 - 2)) ∧
    SmoothWith (n := 1) true 2 (fun x => -(x 0 - 2) ^ 2) (fun x _ => -2 * (x 0 - 2)) ∧ ((1 : ℝ) / 2) * 2 ≤ 1 := by
  classical
  refine ⟨fun x _ => if h : ∃ y : Fin 1 → ℝ, x = vec y then
    (XR.fin (-(h.choose 0 - 2) ^ 2), some (vec (n := 1) fun _ => -2 * (h.choose 0 - 2))) else (XR.fin 0, none), ?_, ?_, ?_, by norm_num⟩
  · intro x
    have h : ∃ y : Fin 1 → ℝ, vec x = vec y := ⟨x, rfl⟩
    have e : h.choose = x := (vec_inj h.choose_spec).symm
    simp only [dif_pos h, e]
  · intro x y _ _
    simp only [Fin.sum_univ_one]
    nlinarith [sq_nonneg (x 0 - y 0)]
  · intro x y _ _
    simp only [Fin.sum_univ_one, sqDist]
    nlinarith [sq_nonneg (x 0 - y 0)]

/-! ### Adam -/

/-- **C99**: the trajectory of Adam, bounded or not: the step after visiting the points `p 0, …, p t` is, in every coordinate, `alpha` times the exponentially
weighted average (`b1`) of the partial derivatives seen so far, divided by the root of the exponentially weighted average (`b2`) of their squares
(plus `1e-8`).  The weights sum to one from the first iteration on. -/
theorem C99_adam_trajectory (P : AdamParams XR) (a b1 b2 e : ℝ) (ha : P.alpha = XR.fin a) (h1 : P.b1 = XR.fin b1) (h2 : P.b2 = XR.fin b2)
    (he : P.epsStop = XR.fin e) (h0 : 0 ≤ a) (hb1 : 0 ≤ b1 ∧ b1 < 1) (hb2 : 0 ≤ b2 ∧ b2 < 1)
    (f : ObjFn XR) (F : (Fin n → ℝ) → ℝ) (G : (Fin n → ℝ) → Fin n → ℝ) (hf : Computes f F G) (b : Bool) (x0 : Fin n → ℝ) :
    ∃ (s : AdamState XR) (p : ℕ → Fin n → ℝ), adamRun P f (vec x0) b = some s ∧ s.trace.length ≤ P.iterations.toNat ∧
      s.params = vec (p s.trace.length) ∧ s.trace = (List.range s.trace.length).map (fun t => vec (p t)) ∧ p 0 = box b x0 ∧
      (∀ t, p (t + 1) = box b fun i => p t i + a * expAverage b1 (fun j => G (p j) i) t /
        (Real.sqrt (expAverage b2 (fun j => G (p j) i ^ 2) t) + 1 / 100000000)) ∧
      (s.trace.length < P.iterations.toNat →
        0 < s.trace.length ∧ Real.sqrt (sqDist (p (s.trace.length - 1)) (p s.trace.length)) < e) := by
  obtain ⟨T, s, hT, hrun, hp, htr, hst⟩ := adamRun_real (b := b) ha h1 h2 hb1 hb2 h0 hf x0
  have hlen : s.trace.length = T := by rw [htr]; simp
  refine ⟨s, fun t => (adamRTraj b a b1 b2 G x0 t).p, hrun, by omega, by rw [hlen]; exact hp, by rw [hlen]; exact htr, rfl, fun t => ?_, ?_⟩
  · have hm := fun i => adamR_moment (b := b) (a := a) (b1 := b1) (b2 := b2) (G := G) x0 (t + 1) i
    have hav : ∀ (β : ℝ) (_ : 0 ≤ β ∧ β < 1) (g : ℕ → ℝ), (1 - β) * decaying β g (t + 1) / (1 - β ^ (t + 1)) = expAverage β g t := by
      intro β hβ g
      rw [← decaying_one, expAverage, mul_div_mul_left _ _ (by linarith [hβ.2])]
    have e1 : ∀ i, (adamRTraj b a b1 b2 G x0 (t + 1)).m i / (1 - b1 ^ (t + 1)) =
        expAverage b1 (fun j => G (adamRTraj b a b1 b2 G x0 j).p i) t := fun i => by rw [(hm i).1, hav b1 hb1]
    have e2 : ∀ i, (adamRTraj b a b1 b2 G x0 (t + 1)).v i / (1 - b2 ^ (t + 1)) =
        expAverage b2 (fun j => G (adamRTraj b a b1 b2 G x0 j).p i ^ 2) t := fun i => by rw [(hm i).2, hav b2 hb2]
    have key : (adamRTraj b a b1 b2 G x0 (t + 1)).p = box b fun i => (adamRTraj b a b1 b2 G x0 t).p i +
        a * ((adamRTraj b a b1 b2 G x0 (t + 1)).m i / (1 - b1 ^ (t + 1))) /
          (Real.sqrt ((adamRTraj b a b1 b2 G x0 (t + 1)).v i / (1 - b2 ^ (t + 1))) + 1 / 100000000) := rfl
    simp only [e1, e2] at key
    exact key
  · rw [hlen]
    intro hlt
    obtain ⟨T', rfl, h⟩ := hst hlt
    rw [he, XR.lt_fin] at h
    exact ⟨Nat.succ_pos _, h⟩

/-- The average of a constant is the constant. -/
theorem expAverage_const {β : ℝ} (h : 0 ≤ β ∧ β < 1) (c : ℝ) (t : ℕ) : expAverage β (fun _ => c) t = c := by
  have h1 : decaying β (fun _ => c) (t + 1) = c * decaying β (fun _ => 1) (t + 1) := by
    unfold decaying
    rw [Finset.mul_sum]
    exact Finset.sum_congr rfl fun j _ => by ring
  have h2 := decaying_one β (t + 1)
  have h3 := one_sub_pow_pos h t
  have h4 : decaying β (fun _ => 1) (t + 1) ≠ 0 := by
    intro h0
    rw [h0, mul_zero] at h2
    linarith
  rw [expAverage, h1, mul_div_assoc, div_self h4, mul_one]

/-- **C99**: on a linear objective Adam, unbounded, moves in every iteration by `alpha * g / (|g| + 1e-8)` in every coordinate, so by less than `alpha` and in
the direction of the slope, from the first iteration on. -/
theorem C99_adam_linear (P : AdamParams XR) (a b1 b2 : ℝ) (ha : P.alpha = XR.fin a) (h1 : P.b1 = XR.fin b1) (h2 : P.b2 = XR.fin b2)
    (he : P.epsStop = XR.fin 0) (h0 : 0 ≤ a) (hb1 : 0 ≤ b1 ∧ b1 < 1) (hb2 : 0 ≤ b2 ∧ b2 < 1)
    (f : ObjFn XR) (F : (Fin n → ℝ) → ℝ) (g : Fin n → ℝ) (hf : Computes f F (fun _ => g)) (x0 : Fin n → ℝ) :
    ∃ s, adamRun P f (vec x0) false = some s ∧
      s.params = vec fun i => x0 i + P.iterations.toNat * (a * g i / (|g i| + 1 / 100000000)) := by
  obtain ⟨s, p, hrun, hle, hp, -, hz, hs, hstop⟩ := C99_adam_trajectory P a b1 b2 0 ha h1 h2 he h0 hb1 hb2 f F _ hf false x0
  refine ⟨s, hrun, ?_⟩
  have hlen : s.trace.length = P.iterations.toNat := by
    rcases Nat.lt_or_ge s.trace.length P.iterations.toNat with h | h
    · exact absurd (hstop h).2 (not_lt.2 (Real.sqrt_nonneg _))
    · omega
  rw [hp, hlen]
  congr 1
  have key : ∀ t : ℕ, p t = fun i => x0 i + t * (a * g i / (|g i| + 1 / 100000000)) := by
    intro t
    induction t with
    | zero => rw [hz]; funext i; simp [box]
    | succ t ih =>
      rw [hs t]
      funext i
      simp only [box, Bool.false_eq_true, if_false, expAverage_const hb1, expAverage_const hb2, Real.sqrt_sq_eq_abs, ih]
      push_cast
      ring
  exact key _

/-- The hypotheses on the objective hold for `3 x + 1`, with the default parameters of Adam. -/
example : ∃ f : ObjFn XR, Computes (n := 1) f (fun x => 3 * x 0 + 1) (fun _ _ => 3) ∧
    (0 : ℝ) ≤ 1 / 1000 ∧ (0 : ℝ) ≤ 9 / 10 ∧ (9 : ℝ) / 10 < 1 ∧ (0 : ℝ) ≤ 999 / 1000 ∧ (999 : ℝ) / 1000 < 1 := by
  classical
  refine ⟨fun x _ => if h : ∃ y : Fin 1 → ℝ, x = vec y then (XR.fin (3 * h.choose 0 + 1), some (vec (n := 1) fun _ => 3))
    else (XR.fin 0, none), ?_, by norm_num⟩
  intro x
  have h : ∃ y : Fin 1 → ℝ, vec x = vec y := ⟨x, rfl⟩
  have e : h.choose = x := (vec_inj h.choose_spec).symm
  simp only [dif_pos h, e]

end Limbo.Ascent
