import Mathlib.Data.Set.Card
import Mathlib.SetTheory.Cardinal.Finite
import Verif.Lemmas.Grid
import Verif.Lemmas.F64Laws
import Verif.Spec.Opt

/-! # C11–C14 — the initialisers

An initialiser is the list of points it evaluates, in order; `Verif/Props/Bo.lean` proves that the optimizer evaluates exactly these. -/

namespace Limbo

variable {α : Type}

/-! ## C11 RandomSampling, NoInit -/

/-- `RandomSampling` evaluates exactly `max(samples,0)` points of dimension `dim`; in bounded mode they are in `[0,1]^dim`
(the uniform generator draws from `[0,1]`). -/
theorem C11_random_sampling [Scalar α] (uniform gauss : Nat → α) (samples : Int) (dim : Nat) (bounded : Bool)
    (hu : ∀ i, le (lit 0) (uniform i) = true ∧ le (uniform i) (lit 1) = true) :
    ((randomSampling uniform gauss samples dim bounded).length : Int) = max samples 0 ∧
    (∀ p ∈ randomSampling uniform gauss samples dim bounded, p.length = dim) ∧
    (bounded = true → ∀ p ∈ randomSampling uniform gauss samples dim bounded, InUnitBox dim p) := by
  have hdim : ∀ p ∈ randomSampling uniform gauss samples dim bounded, p.length = dim := by
    intro p hp
    simp only [randomSampling, List.mem_map] at hp
    obtain ⟨i, -, rfl⟩ := hp
    cases bounded <;> simp [randomVector, randomVec]
  refine ⟨by simp only [randomSampling, List.length_map, List.length_range]; omega, hdim, ?_⟩
  rintro rfl p hp
  refine ⟨hdim p hp, ?_⟩
  simp only [randomSampling, List.mem_map] at hp
  obtain ⟨i, -, rfl⟩ := hp
  intro x hx
  simp only [randomVector, if_true, randomVec, List.mem_map] at hx
  obtain ⟨j, -, rfl⟩ := hx
  exact hu _

theorem range_blocks (dim n : Nat) : ((List.range n).map fun i => (List.range dim).map fun j => i * dim + j).flatten = List.range (n * dim) := by
  induction n with
  | zero => simp
  | succ n ih =>
    rw [List.range_succ, List.map_append, List.flatten_append, ih]
    simp only [List.map_cons, List.map_nil, List.flatten_cons, List.flatten_nil, List.append_nil]
    rw [Nat.succ_mul, List.range_add]

/-- The coordinates of the samples are the draws of the generator (uniform if bounded, else normal) in order: each draw is used exactly once. -/
theorem C11_random_sampling_fresh_draws (uniform gauss : Nat → α) (samples : Int) (dim : Nat) (bounded : Bool) :
    (randomSampling uniform gauss samples dim bounded).flatten =
      (List.range (samples.toNat * dim)).map (if bounded then uniform else gauss) := by
  rw [← range_blocks, List.map_flatten, List.map_map]
  unfold randomSampling randomVector randomVec
  congr 1
  refine List.map_congr_left fun i _ => ?_
  cases bounded <;> simp

example : (randomSampling (fun _ => F64.of (1/4)) (fun _ => F64.of 30) 3 2 true).length = 3 := by decide
example : randomSampling (fun i => F64.of i) (fun _ => F64.of 30) 2 2 true = [[F64.of 0, F64.of 1], [F64.of 2, F64.of 3]] := by
  decide +kernel

/-! ## C12 GridSampling -/

/-- Exact arithmetic: the evaluated points are exactly the `(b+1)^d` points of `{0,1/b,...,1}^d`, each once, in lexicographic
order (`ks` are their integer coordinates). -/
theorem C12_grid_sampling_exact (b fuel d : Nat) (hb : 0 < b) (hfuel : b + 2 ≤ fuel) (hd : 0 < d) :
    ∃ ks : List (List ℕ),
      gridSampling (α := XR) b fuel d = some (ks.map fun k => k.map fun i : ℕ => XR.fin ((i : ℝ) / b)) ∧
      (∀ k, k ∈ ks ↔ k.length = d ∧ ∀ i ∈ k, i ≤ b) ∧
      ks.length = (b + 1) ^ d ∧ ks.Pairwise (List.Lex (· < ·)) ∧ ks.Nodup := by
  have hlt : (List.range (b + 1)).Pairwise (· < ·) := List.pairwise_lt_range
  refine ⟨lexGrid (List.range (b + 1)) d, ?_, ?_, by simp [lexGrid_length], lexGrid_sorted _ hlt d, ?_⟩
  · unfold gridSampling
    rw [gridSamplingAxis_exact b fuel hb hfuel]
    have h := explore_eq (regularAxis b) (List.replicate d (lit 0)) d [] (by simp; omega) (by simp)
    simp only [List.nil_append, List.length_nil, List.length_replicate, List.map_id'] at h
    show explore (regularAxis b) d 0 (List.replicate d (lit 0)) = _
    rw [h, regularAxis, lexGrid_map]
  · intro k
    rw [lexGrid_mem]
    simp only [OnGrid, List.mem_range]
    constructor
    · rintro ⟨h1, h2⟩; exact ⟨h1, fun i hi => by have := h2 i hi; omega⟩
    · rintro ⟨h1, h2⟩; exact ⟨h1, fun i hi => by have := h2 i hi; omega⟩
  · refine (lexGrid_sorted _ hlt d).imp ?_
    intro x y hxy heq
    subst heq
    have hirr : ∀ x : List ℕ, ¬ List.Lex (· < ·) x x := by
      intro x
      induction x with
      | nil => intro h; cases h
      | cons a l ih =>
        intro h
        cases h with
        | cons h => exact ih h
        | rel h => exact absurd h (Nat.lt_irrefl _)
    exact hirr x hxy

/-- Any arithmetic: the evaluated points are exactly the lexicographic product of the axis values the loop visits; their number is
the number of axis values to the power `d`. -/
theorem C12_grid_sampling_any_arithmetic [Scalar α] (bins fuel d : Nat) (axis : List α) (hd : 0 < d)
    (hax : gridSamplingAxis bins fuel = some axis) :
    ∃ pts, gridSampling bins fuel d = some pts ∧ pts.length = axis.length ^ d ∧ ∀ q, q ∈ pts ↔ OnGrid axis d q := by
  refine ⟨lexGrid axis d, ?_, lexGrid_length axis d, lexGrid_mem axis d⟩
  have h := explore_eq axis (List.replicate d (lit 0)) d [] (by simp; omega) (by simp)
  simp only [List.nil_append, List.length_nil, List.length_replicate, List.map_id'] at h
  simp only [gridSampling, hax, h]

/-- binary64: with `bins = 9` the last grid value 1 is lost (rounding errors push it above 1): only 9^d points are evaluated
and none has a coordinate equal to 1. -/
theorem C12_grid_sampling_binary64_loses_last (d : Nat) (hd : 0 < d) :
    ∃ pts, gridSampling (α := F64) 9 20 d = some pts ∧ pts.length = 9 ^ d ∧ ∀ q ∈ pts, F64.of 1 ∉ q := by
  have hax : ∃ axis, gridSamplingAxis (α := F64) 9 20 = some axis ∧ axis.length = 9 ∧ F64.of 1 ∉ axis := by
    have : (gridSamplingAxis (α := F64) 9 20).map (fun a => decide (a.length = 9 ∧ F64.of 1 ∉ a)) = some true := by decide +kernel
    rw [Option.map_eq_some_iff] at this
    obtain ⟨a, h1, h2⟩ := this
    exact ⟨a, h1, by simpa using h2⟩
  obtain ⟨axis, h1, h2, h3⟩ := hax
  obtain ⟨pts, p1, p2, p3⟩ := C12_grid_sampling_any_arithmetic 9 20 d axis hd h1
  refine ⟨pts, p1, by rw [p2, h2], fun q hq hmem => h3 ((p3 q).1 hq |>.2 _ hmem)⟩

example : gridSampling (α := F64) 2 20 2 = some [[F64.of 0, F64.of 0], [F64.of 0, F64.of (1/2)], [F64.of 0, F64.of 1],
    [F64.of (1/2), F64.of 0], [F64.of (1/2), F64.of (1/2)], [F64.of (1/2), F64.of 1],
    [F64.of 1, F64.of 0], [F64.of 1, F64.of (1/2)], [F64.of 1, F64.of 1]] := by decide +kernel

/-! ## C13 RandomSamplingGrid -/

/-- Exact arithmetic: exactly `max(samples,0)` points of dimension `dim`, every coordinate `k/bins` with `0 ≤ k ≤ bins`. -/
theorem C13_random_sampling_grid (draws : Nat → Nat) (samples : Int) (bins dim : Nat) (hb : 0 < bins)
    (hdraw : ∀ i, draws i ≤ bins) :
    ∃ pts, randomSamplingGrid (α := XR) draws samples bins dim true = some pts ∧ (pts.length : Int) = max samples 0 ∧
      ∀ p ∈ pts, p.length = dim ∧ ∀ x ∈ p, ∃ k : ℕ, k ≤ bins ∧ x = XR.fin ((k : ℝ) / bins) := by
  refine ⟨_, rfl, by simp only [List.length_map, List.length_range]; omega, ?_⟩
  intro p hp
  simp only [List.mem_map] at hp
  obtain ⟨i, -, rfl⟩ := hp
  refine ⟨by simp, ?_⟩
  intro x hx
  simp only [List.mem_map] at hx
  obtain ⟨j, -, rfl⟩ := hx
  refine ⟨_, hdraw (i * dim + j), ?_⟩
  rw [XR.div_lit _ _ (by exact_mod_cast hb.ne')]
  push_cast; rfl

/-- Any arithmetic: the coordinates are the draws divided by the number of bins, in order; each draw is used exactly once. -/
theorem C13_random_sampling_grid_fresh_draws [Scalar α] (draws : Nat → Nat) (samples : Int) (bins dim : Nat) :
    ∃ pts, randomSamplingGrid (α := α) draws samples bins dim true = some pts ∧
      pts.flatten = (List.range (samples.toNat * dim)).map fun k => lit (draws k) / lit bins := by
  refine ⟨_, rfl, ?_⟩
  rw [← range_blocks, List.map_flatten, List.map_map]
  congr 1
  refine List.map_congr_left fun i _ => ?_
  simp

/-- binary64: the points are in `[0,1]^dim` (for every `int` value of `bins`). -/
theorem C13_random_sampling_grid_in_bounds (draws : Nat → Nat) (samples : Int) (bins dim : Nat) (hb : 0 < bins)
    (hbi : bins < 2 ^ 31) (hdraw : ∀ i, draws i ≤ bins) :
    ∃ pts, randomSamplingGrid (α := F64) draws samples bins dim true = some pts ∧ ∀ p ∈ pts, InUnitBox dim p := by
  refine ⟨_, rfl, ?_⟩
  intro p hp
  simp only [List.mem_map] at hp
  obtain ⟨i, -, rfl⟩ := hp
  refine ⟨by simp, ?_⟩
  intro x hx
  simp only [List.mem_map] at hx
  obtain ⟨j, -, rfl⟩ := hx
  exact F64.div_nat_unit _ _ hb hbi (hdraw _)

/-- The class comment says that the grid has `bins^dim` points ("if bins = 5 and there are 3 inputs dimensions, then the grid is
5*5*5=125").  In the code it has `(bins + 1)^dim`: both ends of every axis are on it. -/
theorem C13_grid_size (bins dim : Nat) (hb : 0 < bins) :
    {p : List XR | ∃ draws : Nat → Nat, (∀ i, draws i ≤ bins) ∧ randomSamplingGrid draws 1 bins dim true = some [p]}.ncard = (bins + 1) ^ dim := by
  have hb' : (bins : ℝ) ≠ 0 := by exact_mod_cast hb.ne'
  have e : {p : List XR | ∃ draws : Nat → Nat, (∀ i, draws i ≤ bins) ∧ randomSamplingGrid draws 1 bins dim true = some [p]}
      = Set.range fun f : Fin dim → Fin (bins + 1) => List.ofFn fun j => XR.fin (((f j : Nat) : ℝ) / bins) := by
    have pt : ∀ draws : Nat → Nat, randomSamplingGrid (α := XR) draws 1 bins dim true
        = some [List.ofFn fun j : Fin dim => XR.fin (((draws j : Nat) : ℝ) / bins)] := fun draws => by
      simp only [randomSamplingGrid, if_true]
      rw [show (List.range (Int.toNat 1)) = [0] from rfl, List.map_singleton, List.ofFn_eq_map, ← List.map_coe_finRange_eq_range, List.map_map]
      refine congrArg (fun l => some [l]) (List.map_congr_left fun j _ => ?_)
      simp only [Function.comp, zero_mul, zero_add]
      rw [XR.div_lit _ _ (by exact_mod_cast hb.ne')]
      push_cast; rfl
    ext p
    constructor
    · rintro ⟨draws, hd, h⟩
      rw [pt, Option.some.injEq, List.cons.injEq] at h
      exact ⟨fun j => ⟨draws j, Nat.lt_succ_of_le (hd j)⟩, h.1⟩
    · rintro ⟨f, rfl⟩
      refine ⟨fun i => if h : i < dim then f ⟨i, h⟩ else 0, fun i => ?_, ?_⟩
      · dsimp only; split
        · exact Nat.le_of_lt_succ (f _).2
        · exact Nat.zero_le _
      · rw [pt]; simp
  have inj : Function.Injective fun f : Fin dim → Fin (bins + 1) => List.ofFn fun j => XR.fin (((f j : Nat) : ℝ) / bins) := by
    intro f g h
    have h' := List.ofFn_injective h
    funext j
    have hj : ((f j : Nat) : ℝ) / bins = ((g j : Nat) : ℝ) / bins := Xt.fin.inj (congrFun h' j)
    rw [div_left_inj' hb'] at hj
    exact Fin.ext (by exact_mod_cast hj)
  rw [e, ← Set.image_univ, Set.ncard_image_of_injective _ inj, Set.ncard_univ]
  simp

/-- With five bins and three dimensions there are 216 points, not 125. -/
example : {p : List XR | ∃ draws : Nat → Nat, (∀ i, draws i ≤ 5) ∧ randomSamplingGrid draws 1 5 3 true = some [p]}.ncard = 216 :=
  C13_grid_size 5 3 (by norm_num)

example : randomSamplingGrid (α := F64) (fun i => i % 5) 2 4 2 true =
    some [[F64.of 0, F64.of (1/4)], [F64.of (1/2), F64.of (3/4)]] := by decide +kernel

/-! ## C14 LHS -/

/-- In every dimension `i`, each of the `n` intervals `[k/n, (k+1)/n)` contains exactly one of the `n` points
(uniform draws in `[0,1)`, any shuffles). -/
theorem C14_lhs_latin (dim n : Nat) (u : Fin n → Fin dim → ℝ) (hu : ∀ k i, 0 ≤ u k i ∧ u k i < 1)
    (perm : Fin dim → Equiv.Perm (Fin n)) (i : Fin dim) (k : Fin n) :
    ∃! row : Fin n, (k : ℝ) / n ≤ randomLhs dim n u perm row i ∧ randomLhs dim n u perm row i < ((k : ℝ) + 1) / n := by
  have hn : (0 : ℝ) < n := by
    have : 0 < n := Nat.lt_of_le_of_lt (Nat.zero_le _) k.isLt
    exact_mod_cast this
  have hval : ∀ row, randomLhs dim n u perm row i = (u ((perm i).symm row) i + (((perm i).symm row : Fin n) : ℝ)) / n := by
    intro row
    simp only [randomLhs]
    push_cast
    field_simp
    ring
  refine ⟨perm i k, ?_, ?_⟩
  · simp only [hval, Equiv.symm_apply_apply]
    obtain ⟨h0, h1⟩ := hu k i
    constructor
    · rw [div_le_div_iff_of_pos_right hn]; linarith
    · rw [div_lt_div_iff_of_pos_right hn]; linarith
  · rintro row ⟨h1, h2⟩
    rw [hval, div_le_div_iff_of_pos_right hn] at h1
    rw [hval, div_lt_div_iff_of_pos_right hn] at h2
    obtain ⟨h0, h0'⟩ := hu ((perm i).symm row) i
    have e : (perm i).symm row = k := by
      apply Fin.ext
      have a : (((perm i).symm row : Fin n) : ℝ) < (k : ℝ) + 1 := by linarith
      have b : (k : ℝ) < (((perm i).symm row : Fin n) : ℝ) + 1 := by linarith
      have a' : (((perm i).symm row : Fin n) : ℕ) < (k : ℕ) + 1 := by exact_mod_cast a
      have b' : (k : ℕ) < (((perm i).symm row : Fin n) : ℕ) + 1 := by exact_mod_cast b
      omega
    rw [← e]; simp

/-- All points are in `[0,1)^dim`. -/
theorem C14_lhs_in_bounds (dim n : Nat) (u : Fin n → Fin dim → ℝ) (hu : ∀ k i, 0 ≤ u k i ∧ u k i < 1)
    (perm : Fin dim → Equiv.Perm (Fin n)) (row : Fin n) (i : Fin dim) :
    0 ≤ randomLhs dim n u perm row i ∧ randomLhs dim n u perm row i < 1 := by
  obtain ⟨r, hr, -⟩ := C14_lhs_latin dim n u hu perm i ((perm i).symm row)
  have hn : (0 : ℝ) < n := by
    have : 0 < n := Nat.lt_of_le_of_lt (Nat.zero_le _) row.isLt
    exact_mod_cast this
  set k := (perm i).symm row with hk
  have hval : randomLhs dim n u perm row i = (u k i + ((k : Fin n) : ℝ)) / n := by
    simp only [randomLhs, ← hk]
    push_cast
    field_simp
    ring
  obtain ⟨h0, h1⟩ := hu k i
  have hkn : ((k : ℕ) : ℝ) + 1 ≤ n := by exact_mod_cast k.isLt
  rw [hval]
  refine ⟨by positivity, (div_lt_one hn).2 (by linarith)⟩

/-- The initialiser evaluates exactly `samples` points of `[0,1)^dim`; in every dimension each of the `samples` intervals contains the
coordinate of exactly one of them. -/
theorem C14_lhs_initialiser (dim n : Nat) (u : Fin n → Fin dim → ℝ) (hu : ∀ k i, 0 ≤ u k i ∧ u k i < 1) (perm : Fin dim → Equiv.Perm (Fin n)) :
    ∃ pts : List (List ℝ), lhsInit dim n u perm true = some pts ∧ pts.length = n ∧ (∀ p ∈ pts, p.length = dim ∧ ∀ x ∈ p, 0 ≤ x ∧ x < 1) ∧
      ∀ i < dim, ∀ k < n, ∃! r : ℕ, ∃ (p : List ℝ) (x : ℝ), pts[r]? = some p ∧ p[i]? = some x ∧ (k : ℝ) / n ≤ x ∧ x < ((k : ℝ) + 1) / n := by
  refine ⟨_, rfl, by simp, fun p hp => ?_, fun i hi k hk => ?_⟩
  · obtain ⟨row, rfl⟩ := (List.mem_ofFn' _ _).1 hp
    refine ⟨by simp, fun x hx => ?_⟩
    obtain ⟨i, rfl⟩ := (List.mem_ofFn' _ _).1 hx
    exact C14_lhs_in_bounds dim n u hu perm row i
  · obtain ⟨row, ⟨h1, h2⟩, h3⟩ := C14_lhs_latin dim n u hu perm ⟨i, hi⟩ ⟨k, hk⟩
    refine ⟨row, ⟨_, _, by rw [List.getElem?_ofFn, dif_pos row.isLt], by rw [List.getElem?_ofFn, dif_pos hi], h1, h2⟩, ?_⟩
    rintro r ⟨p, x, hp, hx, h4, h5⟩
    rw [List.getElem?_ofFn] at hp
    split at hp
    · next hr =>
      rw [← Option.some.inj hp, List.getElem?_ofFn, dif_pos hi] at hx
      rw [← Option.some.inj hx] at h4 h5
      exact congrArg Fin.val (h3 ⟨r, hr⟩ ⟨h4, h5⟩)
    · cases hp

example : ∀ (k : Fin 3) (i : Fin 2), (0 : ℝ) ≤ (fun (_ : Fin 3) (_ : Fin 2) => (1/2 : ℝ)) k i ∧
    (fun (_ : Fin 3) (_ : Fin 2) => (1/2 : ℝ)) k i < 1 := by intro _ _; norm_num

/-- In exact arithmetic `lhsCoord` is the expression of `randomLhs`. -/
theorem lhsCoord_exact {n k : Nat} (hk : k < n) (u : ℝ) : lhsCoord n k (XR.fin u) = XR.fin (u * (((k + 1 : ℕ) : ℝ) / n - k / n) + k / n) := by
  have hn : (n : ℝ) ≠ 0 := by have : 0 < n := by omega
                              positivity
  have hdiv : ∀ {a b : ℝ}, b ≠ 0 → XR.fin a / XR.fin b = XR.fin (a / b) := by
    intro a b hb
    show Xt.div Xt.fin (Xt.fin a) (Xt.fin b) = _
    simp [Xt.div, hb, XR.fin]
  unfold lhsCoord
  simp only [if_neg (Nat.ne_of_lt hk), XR.lit_eq, Rat.cast_natCast]
  by_cases h : k + 1 = n
  · subst h
    simp only [if_true, hdiv hn, XR.mul_fin, XR.add_fin, XR.sub_fin]
    congr 1
    push_cast at hn ⊢
    field_simp
    ring
  · rw [if_neg h, hdiv hn]
    simp only [XR.mul_fin, XR.add_fin, XR.sub_fin]
    congr 1
    push_cast
    field_simp
    ring

/-- **C14 fails in binary64** at the upper edges: with four samples and every uniform draw the double just below 1, the points drawn are
`1/4 - 2^-55`, `1/2`, `3/4` and `1`: the stratum `[1/4,1/2)` has no point, and the last point is not below 1. -/
theorem C14_float_upper_edge :
    let u := F64.of (1 - 1 / 2 ^ 53)
    lt u (F64.of 1) = true ∧
    (List.range 4).map (fun k => lhsCoord 4 k u) = [F64.of (1/4 - 1 / 2 ^ 55), F64.of (1/2), F64.of (3/4), F64.of 1] := by
  decide +kernel

end Limbo
