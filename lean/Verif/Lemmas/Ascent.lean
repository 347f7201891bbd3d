import Mathlib.Tactic.Linarith
import Mathlib.Tactic.Ring
import Mathlib.Tactic.FieldSimp
import Verif.Lemmas.GradOpt2
import Verif.Lemmas.Grid
import Verif.Spec.Ascent

/-! The gradient-based optimizers on real vectors. -/

namespace Limbo.Ascent

variable {n : ℕ}

theorem vec_length (x : Fin n → ℝ) : (vec x).length = n := by simp [vec]

theorem vec_inj {x y : Fin n → ℝ} (h : vec x = vec y) : x = y := by
  unfold vec at h
  have h' := List.ofFn_injective h
  funext i
  exact Xt.fin.inj (congrFun h' i)

theorem zipWith_vec (op : XR → XR → XR) (r : ℝ → ℝ → ℝ) (h : ∀ a b, op (XR.fin a) (XR.fin b) = XR.fin (r a b)) (x y : Fin n → ℝ) :
    List.zipWith op (vec x) (vec y) = vec fun i => r (x i) (y i) := by
  apply List.ext_getElem
  · simp [vec]
  · intro i h1 h2
    simp [vec, h]

theorem map_vec (op : XR → XR) (r : ℝ → ℝ) (h : ∀ a, op (XR.fin a) = XR.fin (r a)) (x : Fin n → ℝ) :
    (vec x).map op = vec fun i => r (x i) := by
  apply List.ext_getElem
  · simp [vec]
  · intro i h1 h2
    simp [vec, h]

theorem clampIf_vec (b : Bool) (x : Fin n → ℝ) : clampIf b (vec x) = vec (box b x) := by
  unfold clampIf
  cases b with
  | false => simp only [Bool.false_eq_true, if_false]; congr 1
  | true =>
    rw [if_pos rfl, map_vec _ _ clampCoord_fin_eq]
    congr 1

theorem foldl_sq : ∀ (l : List ℝ) (c : ℝ),
    (l.map XR.fin).foldl (fun acc x => acc + x * x) (XR.fin c) = XR.fin (c + (l.map fun x => x ^ 2).sum)
  | [], c => by simp
  | a :: l, c => by
    rw [List.map_cons, List.foldl_cons, XR.mul_fin, XR.add_fin, foldl_sq l, List.map_cons, List.sum_cons]
    congr 1
    ring

theorem vec_eq_map (x : Fin n → ℝ) : vec x = (List.ofFn x).map XR.fin := by
  rw [List.map_ofFn]
  rfl

theorem norm_vec (x : Fin n → ℝ) : ScalarFn.norm (vec x) = XR.fin (Real.sqrt (∑ i, x i ^ 2)) := by
  show XR.sqrt ((vec x).foldl (fun acc x => acc + x * x) (XR.fin 0)) = _
  rw [vec_eq_map, foldl_sq, List.map_ofFn, List.sum_ofFn, zero_add]
  exact XR.sqrt_fin (Finset.sum_nonneg fun i _ => sq_nonneg _)

theorem box_feasible (b : Bool) (x : Fin n → ℝ) : Feasible b (box b x) := by
  intro hb i
  simp only [box, hb, if_true]
  exact ⟨le_max_left _ _, max_le (by norm_num) (min_le_right _ _)⟩

theorem box_of_feasible {b : Bool} {x : Fin n → ℝ} (h : Feasible b x) : box b x = x := by
  funext i
  unfold box
  cases b with
  | false => rfl
  | true =>
    obtain ⟨h0, h1⟩ := h rfl i
    rw [if_pos rfl, min_eq_left h1, max_eq_right h0]

/-- Projection onto the box, one coordinate. -/
theorem box_proj (b : Bool) (x : Fin n → ℝ) {y : Fin n → ℝ} (hy : Feasible b y) (i : Fin n) : 0 ≤ (box b x i - x i) * (y i - box b x i) := by
  unfold box
  cases b with
  | false => simp
  | true =>
    obtain ⟨h0, h1⟩ := hy rfl i
    rw [if_pos rfl]
    rcases le_total (x i) 0 with h | h
    · rw [min_eq_left (by linarith), max_eq_left h]
      nlinarith
    · rcases le_total (x i) 1 with h' | h'
      · rw [min_eq_left h', max_eq_right h]
        simp
      · rw [min_eq_right h', max_eq_right (by norm_num)]
        nlinarith

/-! ### Gradient ascent -/

/-- Loop variables, as reals. -/
structure GaR (n : ℕ) where
  v : Fin n → ℝ
  p : Fin n → ℝ

noncomputable def gaRQuery (nest bounded : Bool) (γ : ℝ) (s : GaR n) : Fin n → ℝ :=
  if nest then box bounded fun i => s.p i + γ * s.v i else s.p

noncomputable def gaRStep (nest bounded : Bool) (a γ : ℝ) (G : (Fin n → ℝ) → Fin n → ℝ) (s : GaR n) : GaR n :=
  let v := fun i => γ * s.v i + a * G (gaRQuery nest bounded γ s) i
  ⟨v, box bounded fun i => s.p i + v i⟩

noncomputable def gaRTraj (nest bounded : Bool) (a γ : ℝ) (G : (Fin n → ℝ) → Fin n → ℝ) (x0 : Fin n → ℝ) : ℕ → GaR n
  | 0 => ⟨fun _ => 0, box bounded x0⟩
  | t + 1 => gaRStep nest bounded a γ G (gaRTraj nest bounded a γ G x0 t)

variable {P : GaParams XR} {a γ : ℝ} {f : ObjFn XR} {F : (Fin n → ℝ) → ℝ} {G : (Fin n → ℝ) → Fin n → ℝ} {b : Bool}

theorem gaStep_real (ha : P.alpha = XR.fin a) (hg : P.gamma = XR.fin γ) (hf : Computes f F G) (r : GaR n) (tr : List (List XR)) :
    gaStep P f b ⟨vec r.v, vec r.p, tr⟩ = some
      (⟨vec (gaRStep P.nesterov b a γ G r).v, vec (gaRStep P.nesterov b a γ G r).p, tr ++ [vec (gaRQuery P.nesterov b γ r)]⟩,
        lt (XR.fin (Real.sqrt (sqDist r.p (gaRStep P.nesterov b a γ G r).p))) P.epsStop) := by
  have hq : gaQuery P b ⟨vec r.v, vec r.p, tr⟩ = vec (gaRQuery P.nesterov b γ r) := by
    unfold gaQuery gaRQuery
    split
    · rw [zipWith_vec _ (fun p v => p + γ * v) (by intro p v; rw [hg]; rfl), clampIf_vec]
    · rfl
  have hfq := hf (gaRQuery P.nesterov b γ r)
  unfold gaStep
  simp only [hq, hfq]
  rw [if_pos (by rw [vec_length, vec_length]), zipWith_vec _ (fun v g => γ * v + a * g) (by intro v g; rw [hg, ha]; rfl),
    zipWith_vec _ (fun p v => p + v) (by intro p v; rfl), clampIf_vec, zipWith_vec _ (fun x y => x - y) XR.sub_fin, norm_vec]
  rfl

theorem gaLoop_real (ha : P.alpha = XR.fin a) (hg : P.gamma = XR.fin γ) (hf : Computes f F G) (x0 : Fin n → ℝ) :
    ∀ (k t : ℕ), ∃ T, t ≤ T ∧ T ≤ t + k ∧
      gaLoop P f b k ⟨vec (gaRTraj P.nesterov b a γ G x0 t).v, vec (gaRTraj P.nesterov b a γ G x0 t).p,
        (List.range t).map fun i => vec (gaRQuery P.nesterov b γ (gaRTraj P.nesterov b a γ G x0 i))⟩ = some
        ⟨vec (gaRTraj P.nesterov b a γ G x0 T).v, vec (gaRTraj P.nesterov b a γ G x0 T).p,
          (List.range T).map fun i => vec (gaRQuery P.nesterov b γ (gaRTraj P.nesterov b a γ G x0 i))⟩ ∧
      (T < t + k → ∃ T', T = T' + 1 ∧
        lt (XR.fin (Real.sqrt (sqDist (gaRTraj P.nesterov b a γ G x0 T').p (gaRTraj P.nesterov b a γ G x0 T).p))) P.epsStop = true) := by
  intro k
  induction k with
  | zero => exact fun t => ⟨t, le_refl _, le_refl _, rfl, fun h => absurd h (by omega)⟩
  | succ k ih =>
    intro t
    rw [gaLoop, gaStep_real ha hg hf]
    have hr : (List.range t).map (fun i => vec (gaRQuery P.nesterov b γ (gaRTraj P.nesterov b a γ G x0 i))) ++
        [vec (gaRQuery P.nesterov b γ (gaRTraj P.nesterov b a γ G x0 t))] =
        (List.range (t + 1)).map (fun i => vec (gaRQuery P.nesterov b γ (gaRTraj P.nesterov b a γ G x0 i))) := by
      rw [List.range_succ, List.map_append]
      rfl
    rw [hr]
    cases hst : lt (XR.fin (Real.sqrt (sqDist (gaRTraj P.nesterov b a γ G x0 t).p
        (gaRStep P.nesterov b a γ G (gaRTraj P.nesterov b a γ G x0 t)).p))) P.epsStop with
    | true => exact ⟨t + 1, by omega, by omega, rfl, fun _ => ⟨t, rfl, hst⟩⟩
    | false =>
      obtain ⟨T, h1, h2, h3, h4⟩ := ih (t + 1)
      exact ⟨T, by omega, by omega, h3, fun h => h4 (by omega)⟩

/-- A run of gradient ascent on a real objective is an initial segment of the real trajectory. -/
theorem gaRun_real (ha : P.alpha = XR.fin a) (hg : P.gamma = XR.fin γ) (hf : Computes f F G) (x0 : Fin n → ℝ)
    (hok : 0 ≤ γ ∧ γ < 1 ∧ 0 ≤ a) : ∃ T, T ≤ P.iterations.toNat ∧
      gaRun P f (vec x0) b = some ⟨vec (gaRTraj P.nesterov b a γ G x0 T).v, vec (gaRTraj P.nesterov b a γ G x0 T).p,
          (List.range T).map fun i => vec (gaRQuery P.nesterov b γ (gaRTraj P.nesterov b a γ G x0 i))⟩ ∧
      (T < P.iterations.toNat → ∃ T', T = T' + 1 ∧
        lt (XR.fin (Real.sqrt (sqDist (gaRTraj P.nesterov b a γ G x0 T').p (gaRTraj P.nesterov b a γ G x0 T).p))) P.epsStop = true) := by
  obtain ⟨T, -, h2, h3, h4⟩ := gaLoop_real (b := b) ha hg hf x0 P.iterations.toNat 0
  refine ⟨T, by omega, ?_, fun h => h4 (by omega)⟩
  rw [gaRun, if_pos]
  · have hi : gaInit (vec x0) b = ⟨vec (fun _ : Fin n => 0), vec (box b x0), []⟩ := by
      unfold gaInit
      rw [clampIf_vec, map_vec (fun _ => lit 0) (fun _ => 0) (by intro; rw [XR.lit_eq]; push_cast; rfl)]
    rw [hi]
    exact h3
  · rw [ha, hg]
    simp only [XR.lit_eq, Bool.and_eq_true, XR.le_fin, XR.lt_fin]
    push_cast
    exact ⟨⟨hok.1, hok.2.1⟩, hok.2.2⟩

theorem gaRTraj_feasible (nest : Bool) (x0 : Fin n → ℝ) (t : ℕ) : Feasible b (gaRTraj nest b a γ G x0 t).p := by
  cases t with
  | zero => exact box_feasible b x0
  | succ t => exact box_feasible b _

/-- One step of gradient ascent without momentum on a smooth concave function. -/
theorem ascent_step (h0 : 0 < a) {L : ℝ} (hL : a * L ≤ 1) (hc : ConcaveWith b F G) (hs : SmoothWith b L F G) {p y : Fin n → ℝ}
    (hp : Feasible b p) (hy : Feasible b y) (p' : Fin n → ℝ) (hp' : p' = box b fun i => p i + a * G p i) :
    2 * a * (F y - F p') ≤ sqDist p y - sqDist p' y := by
  have hf' : Feasible b p' := hp' ▸ box_feasible b _
  have h1 := hc p y hp hy
  have h2 := hs p p' hp hf'
  have h3 : ∀ i, 2 * a * (G p i * (y i - p' i)) ≤ (p i - y i) ^ 2 - (p' i - y i) ^ 2 - (p' i - p i) ^ 2 := by
    intro i
    have := box_proj b (fun i => p i + a * G p i) hy i
    rw [← hp'] at this
    nlinarith
  have h4 : 2 * a * ∑ i, G p i * (y i - p' i) ≤ sqDist p y - sqDist p' y - sqDist p' p := by
    unfold sqDist
    rw [← Finset.sum_sub_distrib, ← Finset.sum_sub_distrib, Finset.mul_sum]
    exact Finset.sum_le_sum fun i _ => h3 i
  have h5 : ∑ i, G p i * (y i - p i) - ∑ i, G p i * (p' i - p i) = ∑ i, G p i * (y i - p' i) := by
    rw [← Finset.sum_sub_distrib]
    exact Finset.sum_congr rfl fun i _ => by ring
  have h6 : 0 ≤ sqDist p' p := Finset.sum_nonneg fun i _ => sq_nonneg _
  have h7 : F y - F p' ≤ ∑ i, G p i * (y i - p' i) + L / 2 * sqDist p' p := by linarith
  have h8 : a * L * sqDist p' p ≤ 1 * sqDist p' p := mul_le_mul_of_nonneg_right hL h6
  nlinarith

/-! ### Adam -/

/-- Loop variables, as reals. -/
structure AdamR (n : ℕ) where
  m : Fin n → ℝ
  v : Fin n → ℝ
  p : Fin n → ℝ

noncomputable def adamRStep (bounded : Bool) (a b1 b2 : ℝ) (G : (Fin n → ℝ) → Fin n → ℝ) (t : ℕ) (s : AdamR n) : AdamR n :=
  let m := fun i => b1 * s.m i + (1 - b1) * G s.p i
  let v := fun i => b2 * s.v i + (1 - b2) * (G s.p i * G s.p i)
  ⟨m, v, box bounded fun i => s.p i + a * (m i / (1 - b1 ^ (t + 1))) / (Real.sqrt (v i / (1 - b2 ^ (t + 1))) + 1 / 100000000)⟩

noncomputable def adamRTraj (bounded : Bool) (a b1 b2 : ℝ) (G : (Fin n → ℝ) → Fin n → ℝ) (x0 : Fin n → ℝ) : ℕ → AdamR n
  | 0 => ⟨fun _ => 0, fun _ => 0, box bounded x0⟩
  | t + 1 => adamRStep bounded a b1 b2 G t (adamRTraj bounded a b1 b2 G x0 t)

theorem adamCoords_vec {P : AdamParams XR} {b1t b2t : XR} (r : ℝ → ℝ → ℝ → ℝ) {n : ℕ} (m v p : Fin n → ℝ)
    (h : ∀ i, adamCoord P b1t b2t (XR.fin (m i)) (XR.fin (v i)) (XR.fin (p i)) = XR.fin (r (m i) (v i) (p i))) :
    adamCoords P b1t b2t (vec m) (vec v) (vec p) = vec fun i => r (m i) (v i) (p i) := by
  induction n with
  | zero => rfl
  | succ n ih =>
    simp only [vec, List.ofFn_succ, adamCoords, h]
    congr 1
    exact ih (fun i => m i.succ) (fun i => v i.succ) (fun i => p i.succ) fun i => h i.succ

variable {A : AdamParams XR} {b1 b2 : ℝ}

theorem adamRTraj_v_nonneg (h2 : 0 ≤ b2 ∧ b2 < 1) (x0 : Fin n → ℝ) (t : ℕ) (i : Fin n) : 0 ≤ (adamRTraj b a b1 b2 G x0 t).v i := by
  induction t with
  | zero => exact le_refl _
  | succ t ih =>
    show 0 ≤ b2 * _ + (1 - b2) * (_ * _)
    have := mul_nonneg h2.1 ih
    have := mul_nonneg (sub_nonneg.2 h2.2.le) (mul_self_nonneg (G (adamRTraj b a b1 b2 G x0 t).p i))
    linarith

theorem one_sub_pow_pos {β : ℝ} (h : 0 ≤ β ∧ β < 1) (t : ℕ) : 0 < 1 - β ^ (t + 1) := by
  exact sub_pos.2 (pow_lt_one₀ h.1 h.2 (Nat.succ_ne_zero t))

theorem adamStep_real (ha : A.alpha = XR.fin a) (h1 : A.b1 = XR.fin b1) (h2 : A.b2 = XR.fin b2) (hb1 : 0 ≤ b1 ∧ b1 < 1)
    (hb2 : 0 ≤ b2 ∧ b2 < 1) (hf : Computes f F G) (r : AdamR n) (hv : ∀ i, 0 ≤ r.v i) (t : ℕ) (tr : List (List XR)) :
    adamStep A f b ⟨vec r.m, vec r.v, XR.fin (b1 ^ (t + 1)), XR.fin (b2 ^ (t + 1)), vec r.p, tr⟩ = some
      (⟨vec (adamRStep b a b1 b2 G t r).m, vec (adamRStep b a b1 b2 G t r).v, XR.fin (b1 ^ (t + 2)), XR.fin (b2 ^ (t + 2)),
        vec (adamRStep b a b1 b2 G t r).p, tr ++ [vec r.p]⟩,
        lt (XR.fin (Real.sqrt (sqDist r.p (adamRStep b a b1 b2 G t r).p))) A.epsStop) := by
  have hfq := hf r.p
  have one : (lit 1 : XR) = XR.fin 1 := by rw [XR.lit_eq]; push_cast; rfl
  have e8 : (lit (1 / 100000000) : XR) = XR.fin (1 / 100000000) := by rw [XR.lit_eq]; push_cast; rfl
  have p1 := one_sub_pow_pos hb1 t
  have p2 := one_sub_pow_pos hb2 t
  have hc : adamCoords A (XR.fin (b1 ^ (t + 1))) (XR.fin (b2 ^ (t + 1))) (vec (adamRStep b a b1 b2 G t r).m)
      (vec (adamRStep b a b1 b2 G t r).v) (vec r.p) = _ := adamCoords_vec
        (fun m v p => p + a * (m / (1 - b1 ^ (t + 1))) / (Real.sqrt (v / (1 - b2 ^ (t + 1))) + 1 / 100000000)) _ _ _ (by
    intro i
    unfold adamCoord
    have hv' : 0 ≤ (adamRStep b a b1 b2 G t r).v i := by
      have := mul_nonneg hb2.1 (hv i)
      have := mul_nonneg (sub_nonneg.2 hb2.2.le) (mul_self_nonneg (G r.p i))
      show 0 ≤ b2 * r.v i + (1 - b2) * (G r.p i * G r.p i)
      linarith
    rw [ha, one, e8, XR.sub_fin, XR.sub_fin, XR.div_fin p1.ne', XR.div_fin p2.ne', XR.sqrt_fin (div_nonneg hv' p2.le), XR.mul_fin,
      XR.add_fin, XR.div_fin (by positivity), XR.add_fin])
  unfold adamStep
  simp only [hfq]
  rw [if_pos (by rw [vec_length, vec_length]),
    zipWith_vec _ (fun m g => b1 * m + (1 - b1) * g) (by intro m g; rw [h1, one, XR.sub_fin]; rfl),
    zipWith_vec _ (fun v g => b2 * v + (1 - b2) * (g * g)) (by intro m g; rw [h2, one, XR.sub_fin]; rfl)]
  have hc' : adamCoords A (XR.fin (b1 ^ (t + 1))) (XR.fin (b2 ^ (t + 1))) (vec fun i => b1 * r.m i + (1 - b1) * G r.p i)
      (vec fun i => b2 * r.v i + (1 - b2) * (G r.p i * G r.p i)) (vec r.p) = _ := hc
  rw [hc', clampIf_vec, zipWith_vec _ (fun x y => x - y) XR.sub_fin, norm_vec, h1, h2, XR.mul_fin, XR.mul_fin, ← pow_succ, ← pow_succ]
  rfl

theorem adamLoop_real (ha : A.alpha = XR.fin a) (h1 : A.b1 = XR.fin b1) (h2 : A.b2 = XR.fin b2) (hb1 : 0 ≤ b1 ∧ b1 < 1)
    (hb2 : 0 ≤ b2 ∧ b2 < 1) (hf : Computes f F G) (x0 : Fin n → ℝ) :
    ∀ (k t : ℕ), ∃ T, t ≤ T ∧ T ≤ t + k ∧
      adamLoop A f b k ⟨vec (adamRTraj b a b1 b2 G x0 t).m, vec (adamRTraj b a b1 b2 G x0 t).v, XR.fin (b1 ^ (t + 1)), XR.fin (b2 ^ (t + 1)),
        vec (adamRTraj b a b1 b2 G x0 t).p, (List.range t).map fun i => vec (adamRTraj b a b1 b2 G x0 i).p⟩ = some
        ⟨vec (adamRTraj b a b1 b2 G x0 T).m, vec (adamRTraj b a b1 b2 G x0 T).v, XR.fin (b1 ^ (T + 1)), XR.fin (b2 ^ (T + 1)),
        vec (adamRTraj b a b1 b2 G x0 T).p, (List.range T).map fun i => vec (adamRTraj b a b1 b2 G x0 i).p⟩ ∧
      (T < t + k → ∃ T', T = T' + 1 ∧
        lt (XR.fin (Real.sqrt (sqDist (adamRTraj b a b1 b2 G x0 T').p (adamRTraj b a b1 b2 G x0 T).p))) A.epsStop = true) := by
  intro k
  induction k with
  | zero => exact fun t => ⟨t, le_refl _, le_refl _, rfl, fun h => absurd h (by omega)⟩
  | succ k ih =>
    intro t
    rw [adamLoop, adamStep_real ha h1 h2 hb1 hb2 hf _ (adamRTraj_v_nonneg hb2 x0 t)]
    have hr : (List.range t).map (fun i => vec (adamRTraj b a b1 b2 G x0 i).p) ++ [vec (adamRTraj b a b1 b2 G x0 t).p] =
        (List.range (t + 1)).map (fun i => vec (adamRTraj b a b1 b2 G x0 i).p) := by
      rw [List.range_succ, List.map_append]
      rfl
    rw [hr]
    cases hst : lt (XR.fin (Real.sqrt (sqDist (adamRTraj b a b1 b2 G x0 t).p
        (adamRStep b a b1 b2 G t (adamRTraj b a b1 b2 G x0 t)).p))) A.epsStop with
    | true => exact ⟨t + 1, by omega, by omega, rfl, fun _ => ⟨t, rfl, hst⟩⟩
    | false =>
      obtain ⟨T, h1, h2, h3, h4⟩ := ih (t + 1)
      exact ⟨T, by omega, by omega, h3, fun h => h4 (by omega)⟩

/-- A run of Adam on a real objective is an initial segment of the real trajectory. -/
theorem adamRun_real (ha : A.alpha = XR.fin a) (h1 : A.b1 = XR.fin b1) (h2 : A.b2 = XR.fin b2) (hb1 : 0 ≤ b1 ∧ b1 < 1)
    (hb2 : 0 ≤ b2 ∧ b2 < 1) (h0 : 0 ≤ a) (hf : Computes f F G) (x0 : Fin n → ℝ) : ∃ T s, T ≤ A.iterations.toNat ∧
      adamRun A f (vec x0) b = some s ∧ s.params = vec (adamRTraj b a b1 b2 G x0 T).p ∧
      s.trace = (List.range T).map (fun i => vec (adamRTraj b a b1 b2 G x0 i).p) ∧
      (T < A.iterations.toNat → ∃ T', T = T' + 1 ∧
        lt (XR.fin (Real.sqrt (sqDist (adamRTraj b a b1 b2 G x0 T').p (adamRTraj b a b1 b2 G x0 T).p))) A.epsStop = true) := by
  obtain ⟨T, -, e2, e3, e4⟩ := adamLoop_real (b := b) ha h1 h2 hb1 hb2 hf x0 A.iterations.toNat 0
  suffices hrun : adamRun A f (vec x0) b = some ⟨vec (adamRTraj b a b1 b2 G x0 T).m, vec (adamRTraj b a b1 b2 G x0 T).v,
      XR.fin (b1 ^ (T + 1)), XR.fin (b2 ^ (T + 1)), vec (adamRTraj b a b1 b2 G x0 T).p,
      (List.range T).map fun i => vec (adamRTraj b a b1 b2 G x0 i).p⟩ from ⟨T, _, by omega, hrun, rfl, rfl, fun h => e4 (by omega)⟩
  rw [adamRun, if_pos]
  · have z : (vec x0).map (fun _ => (lit 0 : XR)) = vec (fun _ : Fin n => 0) :=
      map_vec (fun _ => lit 0) (fun _ => 0) (by intro; rw [XR.lit_eq]; push_cast; rfl) x0
    have hi : adamInit A (vec x0) b = ⟨vec (fun _ : Fin n => 0), vec (fun _ : Fin n => 0), XR.fin (b1 ^ (0 + 1)), XR.fin (b2 ^ (0 + 1)),
        vec (box b x0), []⟩ := by
      unfold adamInit
      rw [clampIf_vec, z, h1, h2, zero_add, pow_one, pow_one]
    rw [hi]
    exact e3
  · rw [ha, h1, h2]
    simp only [XR.lit_eq, Bool.and_eq_true, XR.le_fin, XR.lt_fin]
    push_cast
    exact ⟨⟨⟨hb1, hb2.1⟩, hb2.2⟩, h0⟩

theorem decaying_succ (β : ℝ) (g : ℕ → ℝ) (t : ℕ) : decaying β g (t + 1) = β * decaying β g t + g t := by
  unfold decaying
  rw [Finset.sum_range_succ, Finset.mul_sum]
  congr 1
  · refine Finset.sum_congr rfl fun j hj => ?_
    have := Finset.mem_range.1 hj
    rw [← mul_assoc, ← pow_succ']
    congr 2
    omega
  · simp

theorem decaying_one (β : ℝ) (t : ℕ) : (1 - β) * decaying β (fun _ => 1) t = 1 - β ^ t := by
  induction t with
  | zero => simp [decaying]
  | succ t ih =>
    rw [decaying_succ, pow_succ]
    linear_combination β * ih

theorem adamR_moment (x0 : Fin n → ℝ) (t : ℕ) (i : Fin n) :
    (adamRTraj b a b1 b2 G x0 t).m i = (1 - b1) * decaying b1 (fun j => G (adamRTraj b a b1 b2 G x0 j).p i) t ∧
    (adamRTraj b a b1 b2 G x0 t).v i = (1 - b2) * decaying b2 (fun j => G (adamRTraj b a b1 b2 G x0 j).p i ^ 2) t := by
  induction t with
  | zero => simp [adamRTraj, decaying]
  | succ t ih =>
    rw [decaying_succ, decaying_succ]
    constructor
    · show b1 * _ + (1 - b1) * _ = _
      rw [ih.1]
      ring
    · show b2 * _ + (1 - b2) * (_ * _) = _
      rw [ih.2]
      ring

end Limbo.Ascent
