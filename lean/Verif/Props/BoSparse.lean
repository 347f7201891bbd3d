import Verif.Spec.BoSparse
import Verif.Lemmas.BoGp
import Verif.Props.Sparsified
import Verif.Props.BoGp
import Verif.Props.MultiGp

/-!
**C102**: `BOptimizer` together with `model::SparsifiedGP`.
-/

namespace Limbo

open Gp Sparse

variable {E : GpEnv} {u : Nat → Nat → ℝ × ℝ} {K : List (List ℝ) → List (List ℝ) → GpState E → SparseGp.Ctx}
  {KA : List ℝ → List ℝ → GpState E → (Nat → Nat → ℝ) × SparseGp.Ctx} {hp : HpFunctor E} {P : BoParams XR (GpState E)} {N : Int} {din : Nat}

theorem zip_eraseIdx' {β γ : Type} : ∀ (xs : List β) (ys : List γ) (k : Nat), (xs.eraseIdx k).zip (ys.eraseIdx k) = (xs.zip ys).eraseIdx k
  | [], ys, k => by simp
  | x :: xs, [], k => by simp
  | x :: xs, y :: ys, 0 => by simp
  | x :: xs, y :: ys, k + 1 => by simp [zip_eraseIdx' xs ys k]

/-- thinning keeps pairs, in order -/
theorem thinLoop_sub {α β γ : Type} [Scalar α] {dim : β → Nat} {lim : Nat} {sched : Nat → List Nat} : ∀ (fuel : Nat) (xs : List β) (ys : List γ)
    (dist : Nat → Nat → α) {xs' : List β} {ys' : List γ}, thinLoop dim lim sched fuel xs ys dist = some (xs', ys') → ys.length = xs.length →
    ys'.length = xs'.length ∧ (xs'.zip ys').Sublist (xs.zip ys) := by
  intro fuel
  induction fuel with
  | zero =>
    intro xs ys dist xs' ys' h hl
    simp only [thinLoop, Option.some.injEq, Prod.mk.injEq] at h
    obtain ⟨rfl, rfl⟩ := h
    exact ⟨hl, .refl _⟩
  | succ n ih =>
    intro xs ys dist xs' ys' h hl
    unfold thinLoop at h
    split at h
    · split at h
      · cases h
      · rw [Option.bind_eq_some_iff] at h
        obtain ⟨k?, -, h⟩ := h
        cases k? with
        | none =>
          simp only [Option.some.injEq, Prod.mk.injEq] at h
          obtain ⟨rfl, rfl⟩ := h
          exact ⟨hl, .refl _⟩
        | some k =>
          obtain ⟨h1, h2⟩ := ih _ _ _ h (by rw [List.length_eraseIdx, List.length_eraseIdx, hl])
          rw [zip_eraseIdx'] at h2
          exact ⟨h1, h2.trans (List.eraseIdx_sublist _ _)⟩
    · simp only [Option.some.injEq, Prod.mk.injEq] at h
      obtain ⟨rfl, rfl⟩ := h
      exact ⟨hl, .refl _⟩

/-- thinning leaves something -/
theorem thinLoop_ne {α β γ : Type} [Scalar α] {dim : β → Nat} {lim : Nat} {sched : Nat → List Nat} (hlim : 0 < lim) : ∀ (fuel : Nat) (xs : List β) (ys : List γ)
    (dist : Nat → Nat → α) {xs' : List β} {ys' : List γ}, thinLoop dim lim sched fuel xs ys dist = some (xs', ys') → xs ≠ [] → xs' ≠ [] := by
  intro fuel
  induction fuel with
  | zero =>
    intro xs ys dist xs' ys' h hne
    simp only [thinLoop, Option.some.injEq, Prod.mk.injEq] at h
    rw [← h.1]; exact hne
  | succ n ih =>
    intro xs ys dist xs' ys' h hne
    unfold thinLoop at h
    split at h
    · next hgt =>
      cases xs with
      | nil => exact absurd rfl hne
      | cons x0 xs =>
        simp only [Option.bind_eq_some_iff] at h
        obtain ⟨k, -, h⟩ := h
        cases k with
        | none =>
          simp only [Option.some.injEq, Prod.mk.injEq] at h
          rw [← h.1]; exact hne
        | some i =>
          refine ih _ _ _ h ?_
          intro e
          have := congrArg List.length e
          rw [List.length_eraseIdx, List.length_nil] at this
          split at this <;> omega
    · simp only [Option.some.injEq, Prod.mk.injEq] at h
      rw [← h.1]; exact hne

theorem finPairs_sublist {xs ys xs' ys' : List (List ℝ)} (h : (xs'.zip ys').Sublist (xs.zip ys)) : (finPairs xs' ys').Sublist (finPairs xs ys) := h.map _

theorem finPairs_length {xs ys : List (List ℝ)} (h : xs.length = ys.length) : (finPairs xs ys).length = xs.length := by
  unfold finPairs; rw [List.length_map, List.length_zip, h, Nat.min_self]

theorem PointsInUnitBox.sub {d d' : List (List XR × List XR)} (h : PointsInUnitBox din d) (hs : d'.Sublist d) : PointsInUnitBox din d' := fun p hp => h p (hs.subset hp)

theorem unit_points {xs ys : List (List ℝ)} (h : PointsInUnitBox din (finPairs xs ys)) (hl : xs.length = ys.length) :
    ∀ x ∈ xs, x.length = din ∧ ∀ c ∈ x, 0 ≤ c ∧ c ≤ 1 := by
  intro x hx
  have e : xs = (xs.zip ys).map Prod.fst := (List.map_fst_zip hl.le).symm
  rw [e] at hx
  obtain ⟨p, hp, rfl⟩ := List.mem_map.1 hx
  obtain ⟨h1, h2⟩ := h (p.1.map XR.fin, p.2.map XR.fin) (List.mem_map_of_mem hp)
  refine ⟨by simpa using h1, fun c hc => ?_⟩
  obtain ⟨r, hr, h3⟩ := h2 (XR.fin c) (List.mem_map_of_mem hc)
  rw [Xt.fin.inj hr]; exact h3

theorem euclid_unit {x y : List ℝ} (hx : x.length = din ∧ ∀ c ∈ x, 0 ≤ c ∧ c ≤ 1) (hy : y.length = din ∧ ∀ c ∈ y, 0 ≤ c ∧ c ≤ 1)
    (hd : din < 2 ^ 31) : din * euclid x y < (2 ^ 53 - 1) * 2 ^ 971 := by
  have hat : ∀ {z : List ℝ}, (∀ c ∈ z, 0 ≤ c ∧ c ≤ 1) → ∀ i, 0 ≤ at' z i ∧ at' z i ≤ 1 := by
    intro z hz i
    unfold at'
    by_cases h : i < z.length
    · rw [List.getD_eq_getElem _ _ h]; exact hz _ (List.getElem_mem h)
    · rw [List.getD_eq_default _ _ (not_lt.1 h)]; norm_num
  have h1 : euclid x y ≤ din := by
    unfold euclid
    have hs : ∑ i ∈ Finset.range x.length, (at' x i - at' y i) ^ 2 ≤ din := by
      calc _ ≤ ∑ i ∈ Finset.range x.length, (1:ℝ) := Finset.sum_le_sum fun i _ => by
            have a := hat hx.2 i; have b := hat hy.2 i; nlinarith
        _ = din := by simp [hx.1]
    rw [Real.sqrt_le_left (by positivity)]
    refine hs.trans ?_
    have : (din : ℝ) ≤ (din * din : ℕ) := by exact_mod_cast Nat.le_mul_self din
    push_cast at this
    nlinarith
  have h2 : (din : ℝ) < 2 ^ 31 := by exact_mod_cast hd
  have h0 : (0 : ℝ) ≤ din := by positivity
  have h3 : (din : ℝ) * euclid x y ≤ 2 ^ 62 := by
    have : (din : ℝ) * euclid x y ≤ din * din := mul_le_mul_of_nonneg_left h1 h0
    nlinarith
  refine lt_of_le_of_lt h3 ?_
  have h4 : (2 : ℝ) ^ 62 ≤ 2 ^ 971 := pow_le_pow_right₀ (by norm_num) (by norm_num)
  have h5 : (0 : ℝ) < 2 ^ 971 := by positivity
  generalize (2 : ℝ) ^ 971 = Z at h4 h5 ⊢
  nlinarith

/-- the GP was obtained by calls, holds a part of `d`, and is up to date -/
def SparseRel (N : Int) (din : Nat) (g : GpState E) (d : List (List XR × List XR)) : Prop :=
  ∃ xs ys, xs.length = ys.length ∧ (finPairs xs ys).Sublist d ∧ (d.length ≤ limit N → d = finPairs xs ys) ∧
    (PointsInUnitBox din d → xs.length = min d.length (limit N)) ∧ (d ≠ [] → xs ≠ []) ∧ GpReach E ⟨xs, ys, true, true, true, true⟩ g

theorem limit_eq (h0 : 0 < din) (h : (din : Int) ≤ N) : limit N = N.toNat := by unfold limit; rw [if_neg (by omega)]

/-- what a successful `compute` does -/
theorem sparse_compute (h0 : 0 < din) (hd : din < 2 ^ 31) (hN : (din : Int) ≤ N) {c : SparseGp.Ctx} (hc : c.maxPoints = N)
    (hs : ∀ n, (c.sched n).Perm (List.range n)) {A : GpAbs} {g g' : GpState E} (hr : GpReach E A g) {xs ys : List (List ℝ)} (hl : xs.length = ys.length)
    (h : SparseGp.compute c g xs ys true = some g') : SparseRel N din g' (finPairs xs ys) := by
  unfold SparseGp.compute at h
  rw [hc] at h
  split at h
  · next hle =>
    refine ⟨xs, ys, hl, .refl _, fun _ => rfl, fun _ => ?_, fun hne e => hne (by rw [e]; simp [finPairs]), hr.step (op := .compute xs ys true) trivial h⟩
    rw [finPairs_length hl]; omega
  · next hgt =>
    rw [Option.bind_eq_some_iff] at h
    obtain ⟨⟨xs', ys'⟩, h1, h2⟩ := h
    obtain ⟨e1, e2⟩ := thinLoop_sub _ _ _ _ h1 hl.symm
    refine ⟨xs', ys', e1.symm, finPairs_sublist e2, fun hle => ?_, fun hu => ?_, fun _ => ?_, hr.step (op := .compute xs' ys' true) trivial h2⟩
    · rw [finPairs_length hl] at hle; exact absurd hle hgt
    · have hp := unit_points hu hl
      obtain ⟨xs'', ys'', e, -, hsz, -⟩ := C50_bounded_sublist (α := XR) (d := fun x y => XR.fin (dist2 x y)) (dim := List.length) (D := din) hN hs c.diag
        (xs := xs) (ys := ys) hl.symm (fun x hx => (hp x hx).1) (distFinite_real h0 fun x hx y hy => euclid_unit (hp x hx) (hp y hy) hd)
      rw [e, Option.some.injEq, Prod.mk.injEq] at h1
      obtain ⟨rfl, rfl⟩ := h1
      rw [finPairs_length hl, limit_eq h0 hN]
      omega
    · exact thinLoop_ne (by rw [limit_eq h0 hN]; omega) _ _ _ _ h1 (by rintro rfl; simp at hgt)

theorem sparseOps_lawful (hE : LawfulEnv E) (h0 : 0 < din) (hd : din < 2 ^ 31) (hN : (din : Int) ≤ N)
    (hK : ∀ xs ys g, (K xs ys g).maxPoints = N ∧ ∀ n, ((K xs ys g).sched n).Perm (List.range n))
    (hKA : ∀ x y g, (KA x y g).2.maxPoints = N ∧ ∀ n, ((KA x y g).2.sched n).Perm (List.range n)) :
    LawfulRel (sparseOps E u K KA hp) (SparseRel (E := E) N din) where
  fresh i o := ⟨[], [], rfl, .refl _, fun _ => rfl, fun _ => by simp, fun h => absurd rfl h, GpReach.newDims (u i o) i o⟩
  compute s v m d m' hR hl h := by
    obtain ⟨xs, ys, -, -, -, -, -, hr⟩ := hR
    have h := gpRes_ok h
    rw [Option.bind_eq_some_iff] at h
    obtain ⟨xs', h1, h⟩ := h
    rw [Option.bind_eq_some_iff] at h
    obtain ⟨ys', h2, h⟩ := h
    have e1 := realsL?_eq h1
    have e2 := realsL?_eq h2
    rw [e1, e2, zip_finPairs]
    refine sparse_compute h0 hd hN (hK _ _ _).1 (hK _ _ _).2 hr ?_ h
    rw [e1, e2] at hl; simpa using hl
  addSample s v m d m' hR h := by
    obtain ⟨xs, ys, hlen, hsub, hall, hsz, -, hr⟩ := hR
    have h := gpRes_ok h
    rw [Option.bind_eq_some_iff] at h
    obtain ⟨x, h1, h⟩ := h
    rw [Option.bind_eq_some_iff] at h
    obtain ⟨y, h2, h⟩ := h
    rw [reals?_eq h1, reals?_eq h2]
    have hlen' : (xs ++ [x]).length = (ys ++ [y]).length := by simp [hlen]
    have hsub' : (finPairs (xs ++ [x]) (ys ++ [y])).Sublist (d ++ [(x.map XR.fin, y.map XR.fin)]) := by
      rw [finPairs_snoc hlen]; exact hsub.append (.refl _)
    unfold SparseGp.addSample at h
    rw [Option.bind_eq_some_iff] at h
    obtain ⟨g0, h3, h⟩ := h
    have hr0 : GpReach E ⟨xs ++ [x], ys ++ [y], true, true, true, true⟩ g0 := hr.step (op := .add x y) trivial h3
    obtain ⟨hx, hy⟩ := C65_data hE hr0
    have hxs : g0.samples = xs ++ [x] := hx
    rw [(hKA _ _ _).1] at h
    have hdl : d.length + 1 ≤ limit N → d = finPairs xs ys := fun h => hall (by omega)
    have hk1 : PointsInUnitBox din (d ++ [(x.map XR.fin, y.map XR.fin)]) → xs.length = min d.length (limit N) := fun hu => hsz (hu.sub (List.sublist_append_left _ _))
    split at h
    · next hgt =>
      rw [hxs] at h hgt
      have hrows : g0.obs.rows = (xs ++ [x]).length := by
        have := congrArg List.length hy
        simp only [observationsOf, List.length_map, List.length_range] at this
        rw [this, hlen']
      have hobs : ((List.range (xs ++ [x]).length).map fun i => (List.range g0.obs.cols).map fun c => g0.obs.e i c) = ys ++ [y] := by
        rw [← hrows]; exact hy
      simp only [hobs] at h
      obtain ⟨xs', ys', a1, a2, a3, a4, a6, a5⟩ := sparse_compute h0 hd hN (hKA _ _ _).1 (hKA _ _ _).2 hr0 hlen' h
      refine ⟨xs', ys', a1, a2.trans hsub', fun hle => ?_, fun hu => ?_, fun _ => a6 (by rw [finPairs_snoc hlen]; simp), a5⟩
      · exfalso
        rw [List.length_append, List.length_singleton] at hle
        have := hdl hle
        rw [List.length_append, List.length_singleton] at hgt
        have h5 := hsub.length_le
        rw [finPairs_length hlen] at h5
        omega
      · rw [a4 (hu.sub hsub'), finPairs_length hlen', List.length_append, List.length_append, List.length_singleton, List.length_singleton, hk1 hu]
        omega
    · next hle =>
      rw [hxs, List.length_append, List.length_singleton] at hle
      cases h
      refine ⟨xs ++ [x], ys ++ [y], hlen', hsub', fun h => ?_, fun hu => ?_, fun _ => by simp, hr0⟩
      · rw [List.length_append, List.length_singleton] at h
        rw [finPairs_snoc hlen, hdl h]
      · rw [List.length_append, List.length_append, List.length_singleton, List.length_singleton, hk1 hu]
        have := hk1 hu
        omega
  optHp m d m' hR h := by
    obtain ⟨xs, ys, hlen, h1, h2, h3, h4, hr⟩ := hR
    exact ⟨xs, ys, hlen, h1, h2, h3, h4, hp.reach hr (gpRes_ok h)⟩
  computeThrow s v m d e m' _ h := (gpRes_throw h).elim
  addThrow s v m d e m' _ h := (gpRes_throw h).elim
  hpThrow m d e m' _ h := (gpRes_throw h).elim

theorem SparseRel.fits (hE : LawfulEnv E) (h0 : 0 < din) (hN : (din : Int) ≤ N) {g : GpState E} {d : List (List XR × List XR)} (h : SparseRel N din g d) :
    FitsPart N.toNat din g d := by
  obtain ⟨xs, ys, hlen, h1, h2, h3, h4, hr⟩ := h
  rw [limit_eq h0 hN] at h2 h3
  exact ⟨finPairs xs ys, h1, GpRel.fits hE ⟨xs, ys, hlen, rfl, hr⟩, fun h => (h2 h).symm,
    fun hd e => h4 hd (by have := congrArg List.length e; rw [finPairs_length hlen] at this; exact List.length_eq_zero_iff.1 this),
    fun h => by rw [finPairs_length hlen, h3 h]⟩

theorem newBo_sparse (c : Int) (u0 : ℝ × ℝ) : RelT (SparseRel N din) (newBo P c (Gp.new E u0)) :=
  ⟨newBo_inv P c _, by intro pre e hp; simp [newBo] at hp, [], [], [], rfl, .refl _, fun _ => rfl, fun _ => by simp, fun h => absurd rfl h, GpReach.new u0⟩

/-- **C102**: after any history of calls of the optimizer, at any moment at which an acquisition function was built or the
hyper-parameters were about to be optimized, the `SparsifiedGP` was fitted to a part of the finite evaluations since the last reset: to all
of them as long as there are at most `max_points`, and to `max_points` of them otherwise (points in the unit box); when statistics were
written, the same holds for the evaluations without the newest. -/
theorem C102_fitted_to_part_of_data (hE : LawfulEnv E) (h0 : 0 < din) (hd : din < 2 ^ 31) (hN : (din : Int) ≤ N)
    (hK : ∀ xs ys g, (K xs ys g).maxPoints = N ∧ ∀ n, ((K xs ys g).sched n).Perm (List.range n))
    (hKA : ∀ x y g, (KA x y g).2.maxPoints = N ∧ ∀ n, ((KA x y g).2.sched n).Perm (List.range n))
    (hP : P.ops = sparseOps E u K KA hp) (c : Int) (u0 : ℝ × ℝ)
    (ops : List (BoOp XR (GpState E))) (st : BoState XR (GpState E)) (h : runOps P ops (newBo P c (Gp.new E u0)) = some st)
    (pre post : List (Event XR (GpState E))) (g : GpState E) (it : Int) :
    (st.trace = pre ++ .acqui g it :: post → FitsPart N.toNat din g (expect pre)) ∧
    (st.trace = pre ++ .hp g :: post → FitsPart N.toNat din g (expect pre)) ∧
    (st.trace = pre ++ .stat g :: post → ∃ others newest, expect pre = others ++ [newest] ∧ FitsPart N.toNat din g others) := by
  have hL : LawfulRel P.ops (SparseRel (E := E) N din) := by rw [hP]; exact sparseOps_lawful hE h0 hd hN hK hKA
  have hT := (runOps_inv (I := RelT (SparseRel N din)) (fun op st h => runOp_rel hL op st h) ops _ st (newBo_sparse c u0) h).tr
  refine ⟨fun he => ?_, fun he => ?_, fun he => ?_⟩
  · exact (hT pre (.acqui g it) ⟨post, by rw [he]; simp⟩ : SparseRel N din g (expect pre)).fits hE h0 hN
  · exact (hT pre (.hp g) ⟨post, by rw [he]; simp⟩ : SparseRel N din g (expect pre)).fits hE h0 hN
  · obtain ⟨d, p, h1, h2⟩ := (hT pre (.stat g) ⟨post, by rw [he]; simp⟩ : ∃ d p, SparseRel N din g d ∧ expect pre = d ++ [p])
    exact ⟨d, p, h2, h1.fits hE h0 hN⟩

/-- **C102**: when `optimize` returns, `model()` is fitted to a part of `samples()` and `observations()` in the same sense. -/
theorem C102_on_return (hE : LawfulEnv E) (h0 : 0 < din) (hd : din < 2 ^ 31) (hN : (din : Int) ≤ N)
    (hK : ∀ xs ys g, (K xs ys g).maxPoints = N ∧ ∀ n, ((K xs ys g).sched n).Perm (List.range n))
    (hKA : ∀ x y g, (KA x y g).2.maxPoints = N ∧ ∀ n, ((KA x y g).2.sched n).Perm (List.range n))
    (hP : P.ops = sparseOps E u K KA hp) (c : Int) (u0 : ℝ × ℝ)
    (ops : List (BoOp XR (GpState E))) (st st' : BoState XR (GpState E)) (h : runOps P ops (newBo P c (Gp.new E u0)) = some st)
    (f : StateFun XR (GpState E)) (afun : List XR → XR) (reset : Bool) (fuel : Nat) (ho : optimize P f afun reset fuel st = .ok st') :
    FitsPart N.toNat din st'.model (st'.samples.zip st'.observations) := by
  have hL : LawfulRel P.ops (SparseRel (E := E) N din) := by rw [hP]; exact sparseOps_lawful hE h0 hd hN hK hKA
  have hT := runOps_inv (I := RelT (SparseRel N din)) (fun op st h => runOp_rel hL op st h) ops _ st (newBo_sparse c u0) h
  have := optimize_rel hL f afun reset fuel st hT
  rw [ho] at this
  exact this.model.fits hE h0 hN

/-! ### a run in which the newest evaluation is ignored -/

theorem dist2_01 : dist2 [0] [1] = 1 ∧ dist2 [1] [0] = 1 := by
  rw [euclid_eq, euclid_eq]
  constructor <;> simp [euclid, at']

/-- with `max_points = 1` and the iterations of the parallel loop in reverse order, the second of two points is removed -/
theorem sparsify_01 (diag : Nat → XR) (a b : List ℝ) :
    sparsify (fun x y => XR.fin (dist2 x y)) List.length 1 (fun n => (List.range n).reverse) diag [[0], [1]] [a, b] = some ([[0]], [a]) := by
  have hlt : lt (XR.fin (((0:ℚ):ℝ) + 1)) (dblMax : XR) = true := by
    unfold dblMax
    rw [XR.lit_eq, XR.lt_fin]
    have h5 : (1 : ℝ) ≤ 2 ^ 971 := one_le_pow₀ (by norm_num)
    push_cast
    generalize (2 : ℝ) ^ 971 = Z at h5 ⊢
    nlinarith
  have c0 : crowding 1 2 (distances (fun x y => XR.fin (dist2 x y)) diag [[0], [1]]) 0 = some (XR.fin (((0:ℚ):ℝ) + 1)) := by
    simp [crowding, smallest, neighbors, distances, List.range_succ, dist2_01, sumFrom0, XR.lit_eq, XR.add_fin]
  have c1 : crowding 1 2 (distances (fun x y => XR.fin (dist2 x y)) diag [[0], [1]]) 1 = some (XR.fin (((0:ℚ):ℝ) + 1)) := by
    simp [crowding, smallest, neighbors, distances, List.range_succ, dist2_01, sumFrom0, XR.lit_eq, XR.add_fin]
  have hself : lt (XR.fin (((0:ℚ):ℝ) + 1)) (XR.fin (((0:ℚ):ℝ) + 1)) = false := by
    rw [Bool.eq_false_iff, ne_eq, XR.lt_fin]; exact lt_irrefl _
  have hm : mostDense [1, 0] 1 2 (distances (fun x y => XR.fin (dist2 x y)) diag [[0], [1]]) = some (some 1) := by
    simp only [mostDense, List.foldl_cons, List.foldl_nil, Option.bind_some, c0, c1, Option.map_some, update, hlt, if_true, hself, Bool.false_eq_true, if_false]
  unfold sparsify
  have hl : limit 1 = 1 := rfl
  rw [hl]
  show thinLoop List.length 1 _ 2 _ _ _ = _
  rw [thinLoop, if_pos (by simp)]
  show (mostDense [1, 0] 1 2 _).bind _ = _
  rw [hm]
  simp [thinLoop]

/-- limit 1, reverse order -/
noncomputable def exSparseCtx : SparseGp.Ctx := ⟨1, fun n => (List.range n).reverse, fun _ => XR.fin 5, fun _ _ => 7⟩

/-- a configuration with `max_points = 1`, one initial point and one iteration -/
noncomputable def exSparseP (E : GpEnv) : BoParams XR (GpState E) where
  bounded := true
  statsEnabled := false
  hpPeriod := -1
  ops := sparseOps E (fun _ _ => (1, 2)) (fun _ _ _ => exSparseCtx) (fun _ _ _ => (fun _ _ => 3, exSparseCtx)) .none
  initPts := fun _ _ => some [[XR.fin 0]]
  acqui := fun _ _ _ => fun _ _ => (XR.fin 0, none)
  acquiOpt := fun _ _ _ _ => .point [XR.fin 1]
  startPt := fun _ _ => [XR.fin 0]
  stop := [maxIterations 1]
  stats := []

/-- the first value is 1, the others are 3 -/
noncomputable def exSparseF (E : GpEnv) : StateFun XR (GpState E) where
  dimIn := 1
  dimOut := 1
  call := fun tr _ => if (callPts tr).length = 0 then .ret [XR.fin 1] else .ret [XR.fin 3]

/-- **C102**: the part need not contain the newest evaluation: in this run the evaluation of the iteration is dropped at once, and the
model predicts from the initial point only. -/
theorem C102_newest_may_be_ignored (hE : LawfulEnv E) (u0 : ℝ × ℝ) : ∃ st' g pre post,
    optimize (exSparseP E) (exSparseF E) (fun v => v.headD (XR.fin 0)) true 5 (newBo (exSparseP E) 0 (Gp.new E u0)) = .ok st' ∧
    st'.samples.zip st'.observations = [([XR.fin 0], [XR.fin 1]), ([XR.fin 1], [XR.fin 3])] ∧
    GpFits st'.model [([XR.fin 0], [XR.fin 1])] ∧ st'.trace = pre ++ .acqui g 0 :: post ∧ expect pre = [([XR.fin 0], [XR.fin 1])] := by
  have hd1 : DataSet [[(0:ℝ)]] [[1]] 1 1 := ⟨by simp, by simp, by simp, by simp, by norm_num, by norm_num⟩
  have hd2 : DataSet ([[(0:ℝ)]] ++ [[1]]) ([[1]] ++ [[3]]) 1 1 := ⟨by simp, by simp, by simp, by simp, by norm_num, by norm_num⟩
  obtain ⟨s1, h1, -⟩ := C43_fit_never_fails hE (GpReach.new u0) [[0]] [[1]] hd1 (fun _ _ => 7)
  have hr1 : GpReach E ⟨[[0]], [[1]], true, true, true, true⟩ s1 := (GpReach.new u0).step (op := .compute [[0]] [[1]] true) trivial h1
  obtain ⟨s2, h2, -⟩ := C43_add_sample_never_fails hE hr1 rfl [1] [3] hd2 (fun _ _ => 3)
  have hr2 : GpReach E ⟨[[0], [1]], [[1], [3]], true, true, true, true⟩ s2 := hr1.step (op := .add [1] [3]) trivial h2
  obtain ⟨s3, h3, -⟩ := C43_fit_never_fails hE hr2 [[0]] [[1]] hd1 (fun _ _ => 7)
  have hr3 : GpReach E ⟨[[0]], [[1]], true, true, true, true⟩ s3 := hr2.step (op := .compute [[0]] [[1]] true) trivial h3
  have c1 : (exSparseP E).ops.compute [[XR.fin 0]] [[XR.fin 1]] (Gp.new E u0) = .ok s1 := by
    show gpRes (SparseGp.compute exSparseCtx (Gp.new E u0) [[0]] [[1]] true) = _
    unfold SparseGp.compute
    rw [if_pos (show [[(0:ℝ)]].length ≤ limit exSparseCtx.maxPoints from le_refl 1)]
    show gpRes (Gp.compute (fun _ _ => 7) (Gp.new E u0) [[0]] [[1]] true) = _
    rw [h1]; rfl
  have c2 : (exSparseP E).ops.addSample [XR.fin 1] [XR.fin 3] s1 = .ok s3 := by
    show gpRes (SparseGp.addSample (fun _ _ => 3) exSparseCtx s1 [1] [3]) = _
    unfold SparseGp.addSample
    rw [h2]
    obtain ⟨hx, hy⟩ := C65_data hE hr2
    have hxs : s2.samples = [[0], [1]] := hx
    have hrows : s2.obs.rows = 2 := by
      have := congrArg List.length hy
      simpa [observationsOf] using this
    have hobs : ((List.range [[(0:ℝ)], [1]].length).map fun i => (List.range s2.obs.cols).map fun c => s2.obs.e i c) = [[1], [3]] := by
      rw [show [[(0:ℝ)], [1]].length = s2.obs.rows from hrows.symm]; exact hy
    rw [Option.bind_some, hxs, if_pos (show [[(0:ℝ)], [1]].length > limit exSparseCtx.maxPoints from Nat.one_lt_two)]
    simp only [hobs]
    unfold SparseGp.compute
    rw [if_neg (show ¬ [[(0:ℝ)], [1]].length ≤ limit exSparseCtx.maxPoints from Nat.not_succ_le_self 1)]
    have hsp := sparsify_01 exSparseCtx.diag [1] [3]
    rw [show exSparseCtx.maxPoints = 1 from rfl, show exSparseCtx.sched = fun n => (List.range n).reverse from rfl, hsp]
    show gpRes (Gp.compute (fun _ _ => 7) s2 [[0]] [[1]] true) = _
    rw [h3]; rfl
  have hf : GpFits s3 [([XR.fin 0], [XR.fin 1])] := GpRel.fits hE ⟨[[0]], [[1]], rfl, rfl, hr3⟩
  have hn : ∀ r : ℝ, isNanOrInf [XR.fin r] = false := fun _ => rfl
  have e1 : (exSparseP E).initPts = fun _ _ => some [[XR.fin 0]] := rfl
  have e2 : (exSparseP E).acquiOpt = fun _ _ _ _ => .point [XR.fin 1] := rfl
  have e3 : (exSparseP E).stop = [maxIterations 1] := rfl
  have e4 : (exSparseP E).statsEnabled = false := rfl
  have e5 : (exSparseP E).hpPeriod = -1 := rfl
  have e6 : (exSparseF E).call = fun tr _ => if (callPts tr).length = 0 then .ret [XR.fin 1] else .ret [XR.fin 3] := rfl
  unfold optimize boInit
  simp [e1, evalAll, evalAndAdd, e6, newBo, BoState.push, callPts, addNewSample, hn, Res.andThen, boModelInit, c1, withModel, Res.bind, boLoop,
    boStop, chainCriteria, e3, maxIterations, boIteration, e2, updateStats, e4, boModelAdd, c2, boHp, e5]
  exact ⟨hf, s1, [.start true, .call [XR.fin 0] (.ret [XR.fin 1]), .asked 0 false], ⟨_, rfl⟩, rfl⟩

/-- the hypotheses of C102 are met by this run -/
example : ∃ st g pre post, runOps (exSparseP exEnvConst) [.optimize (exSparseF exEnvConst) (fun v => v.headD (XR.fin 0)) true 5]
      (newBo (exSparseP exEnvConst) 0 (Gp.new exEnvConst (0, 0))) = some st ∧
    st.trace = pre ++ .acqui g 0 :: post ∧ expect pre = [([XR.fin 0], [XR.fin 1])] ∧ FitsPart 1 1 g (expect pre) := by
  have hE := exEnvConst_lawful
  obtain ⟨st, g, pre, post, a, b, c, d, e⟩ := C102_newest_may_be_ignored hE (0, 0)
  have hrun : runOps (exSparseP exEnvConst) [.optimize (exSparseF exEnvConst) (fun v => v.headD (XR.fin 0)) true 5]
      (newBo (exSparseP exEnvConst) 0 (Gp.new exEnvConst (0, 0))) = some st := by
    simp only [runOps, runOp, a]
  exact ⟨st, g, pre, post, hrun, d, e, (C102_fitted_to_part_of_data hE (din := 1) (N := 1) one_pos (by norm_num) (le_refl _)
    (fun _ _ _ => ⟨rfl, fun n => List.reverse_perm _⟩) (fun _ _ _ => ⟨rfl, fun n => List.reverse_perm _⟩) rfl 0 (0, 0) _ st hrun pre post g 0).1 d⟩

end Limbo
