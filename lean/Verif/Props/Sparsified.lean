import Verif.Lemmas.Sparsified
import Verif.Lemmas.F64Laws
import Verif.Props.Gp

/-!
Properties of `SparsifiedGP`: C50 (bounded, order-preserving thinning) and C51 (greedy removal of the most redundant point).

The first group is about the thinning itself, for any number type with IEEE comparisons, any distance function, any schedule of the
parallel loop and any content of the uninitialised diagonal.  The second group is about the model as a GP, over exact reals.
-/

namespace Limbo

open Sparse

variable {α β γ : Type} [Scalar α] [LawfulCmp α]

/-- **C51**: thinning never fails and removes, as long as there are more than `max_points` points, a point for which the summed distance
to its `D` nearest neighbours is minimal. -/
theorem C51_removes_most_crowded {d : β → β → α} {dim : β → Nat} {D : Nat} {maxPoints : Int} {sched : Nat → List Nat}
    (hmax : (D : Int) ≤ maxPoints) (hs : ∀ n, (sched n).Perm (List.range n)) (diag : Nat → α) {xs : List β} {ys : List γ}
    (hl : ys.length = xs.length) (hdim : ∀ x ∈ xs, dim x = D) (hf : DistFinite d D xs) :
    ∃ xs' ys', sparsify d dim maxPoints sched diag xs ys = some (xs', ys') ∧ ys'.length = xs'.length ∧
      GreedyThin (MostCrowded d D) maxPoints.toNat (xs.zip ys) (xs'.zip ys') := by
  have hlim : limit maxPoints = maxPoints.toNat := by unfold limit; rw [if_neg (by omega)]
  unfold sparsify
  rw [hlim]
  exact thinLoop_spec (by omega) hs xs.length xs ys _ (le_refl _) hl hdim (distances_ok d diag xs) hf

/-- **C50**: the result has exactly `min(N, max_points)` pairs, which are pairs given by the caller, in the original order. -/
theorem C50_bounded_sublist {d : β → β → α} {dim : β → Nat} {D : Nat} {maxPoints : Int} {sched : Nat → List Nat}
    (hmax : (D : Int) ≤ maxPoints) (hs : ∀ n, (sched n).Perm (List.range n)) (diag : Nat → α) {xs : List β} {ys : List γ}
    (hl : ys.length = xs.length) (hdim : ∀ x ∈ xs, dim x = D) (hf : DistFinite d D xs) :
    ∃ xs' ys', sparsify d dim maxPoints sched diag xs ys = some (xs', ys') ∧ (xs'.zip ys').Sublist (xs.zip ys) ∧
      (xs'.length : Int) = min (xs.length : Int) maxPoints ∧ ys'.length = xs'.length := by
  obtain ⟨xs', ys', e, hl', hg⟩ := C51_removes_most_crowded hmax hs diag hl hdim hf
  refine ⟨xs', ys', e, hg.sublist.1, ?_, hl'⟩
  have := hg.sublist.2
  rw [List.length_zip, List.length_zip, hl', hl] at this
  omega

omit [LawfulCmp α] in
theorem mostDense_diag {d : β → β → α} {xs : List β} {dist dist' : Nat → Nat → α} (h : DistOK d xs dist) (h' : DistOK d xs dist')
    (D : Nat) {order : List Nat} (ho : order.Perm (List.range xs.length)) :
    mostDense order D xs.length dist = mostDense order D xs.length dist' := by
  unfold mostDense
  congr 1
  have : ∀ (l : List Nat), (∀ i ∈ l, i < xs.length) → ∀ s,
      l.foldl (fun (s? : Option (α × Option Nat)) i => s?.bind fun s => (crowding D xs.length dist i).map fun d => update d i s) s =
      l.foldl (fun (s? : Option (α × Option Nat)) i => s?.bind fun s => (crowding D xs.length dist' i).map fun d => update d i s) s := by
    intro l
    induction l with
    | nil => intro _ s; rfl
    | cons a l ih =>
      intro hm s
      simp only [List.foldl_cons]
      have ha : a < xs.length := hm a (by simp)
      rw [show crowding D xs.length dist a = crowding D xs.length dist' a by
        unfold crowding
        rw [neighbors_eq h (List.getElem?_eq_getElem ha), neighbors_eq h' (List.getElem?_eq_getElem ha)]]
      exact ih (fun i hi => hm i (by simp [hi])) _
  exact this order (fun i hi => by simpa using ho.mem_iff.1 hi) _

omit [LawfulCmp α] in
theorem mostDense_lt {dist : Nat → Nat → α} {D n k : Nat} {order : List Nat} (h : mostDense order D n dist = some (some k)) : k ∈ order := by
  unfold mostDense at h
  have key : ∀ (l : List Nat) (s : α × Option Nat) r,
      l.foldl (fun (s? : Option (α × Option Nat)) i => s?.bind fun s => (crowding D n dist i).map fun d => update d i s) (some s) = some r →
      r.2 = s.2 ∨ ∃ i ∈ l, r.2 = some i := by
    intro l
    induction l with
    | nil => intro s r h; simp at h; subst h; exact Or.inl rfl
    | cons a l ih =>
      intro s r h
      simp only [List.foldl_cons, Option.bind_some] at h
      cases hc : crowding D n dist a with
      | none =>
        rw [hc] at h
        exfalso
        have : ∀ l : List Nat, l.foldl (fun (s? : Option (α × Option Nat)) i =>
            s?.bind fun s => (crowding D n dist i).map fun d => update d i s) none = none := by
          intro l; induction l with
          | nil => rfl
          | cons b l ih => simpa using ih
        simp [this] at h
      | some v =>
        rw [hc] at h
        simp only [Option.map_some] at h
        rcases ih _ _ h with e | ⟨i, hi, e⟩
        · rw [e]; unfold update
          split
          · exact Or.inr ⟨a, by simp, rfl⟩
          · exact Or.inl rfl
        · exact Or.inr ⟨i, by simp [hi], e⟩
  cases hr : order.foldl (fun (s? : Option (α × Option Nat)) i => s?.bind fun s => (crowding D n dist i).map fun d => update d i s)
      (some (dblMax, none)) with
  | none => rw [hr] at h; simp at h
  | some r =>
    rw [hr] at h
    simp only [Option.map_some, Option.some.injEq] at h
    rcases key _ _ _ hr with e | ⟨i, hi, e⟩
    · rw [h] at e; simp at e
    · rw [h] at e; simp at e; subst e; exact hi

omit [LawfulCmp α] in
theorem thin_diag {d : β → β → α} {dim : β → Nat} {lim : Nat} {sched : Nat → List Nat} (hs : ∀ n, (sched n).Perm (List.range n)) :
    ∀ (fuel : Nat) (xs : List β) (ys : List γ) (dist dist' : Nat → Nat → α), DistOK d xs dist → DistOK d xs dist' →
      thinLoop dim lim sched fuel xs ys dist = thinLoop dim lim sched fuel xs ys dist'
  | 0, _, _, _, _, _, _ => rfl
  | fuel + 1, xs, ys, dist, dist', h, h' => by
    unfold thinLoop
    by_cases hgt : xs.length > lim
    · rw [if_pos hgt, if_pos hgt]
      cases xs with
      | nil => rfl
      | cons x0 xs =>
        simp only
        rw [mostDense_diag h h' _ (hs _)]
        congr 1
        funext k?
        cases k? with
        | none => rfl
        | some k => exact thin_diag hs fuel _ _ _ _ (h.erase k) (h'.erase k)
    · rw [if_neg hgt, if_neg hgt]

omit [LawfulCmp α] in
/-- **C51**: the uninitialised diagonal of the distance matrix never influences anything, not even whether the call fails. -/
theorem C51_diagonal_irrelevant (d : β → β → α) (dim : β → Nat) (maxPoints : Int) {sched : Nat → List Nat}
    (hs : ∀ n, (sched n).Perm (List.range n)) (diag diag' : Nat → α) (xs : List β) (ys : List γ) :
    sparsify d dim maxPoints sched diag xs ys = sparsify d dim maxPoints sched diag' xs ys :=
  thin_diag hs _ _ _ _ _ (distances_ok d diag xs) (distances_ok d diag' xs)

/-! ### what can go wrong -/

/-- `|x - y|`, the distance of one-dimensional points in binary64. -/
def dist1 (x y : F64) : F64 := ScalarFn.norm [x - y]

/-- **C51**: with equidistant points the result depends on the schedule. -/
theorem C51_ties_depend_on_schedule :
    sparsify dist1 (fun _ => 1) 2 (fun n => List.range n) (fun _ => F64.nan) [F64.of 0, F64.of 1, F64.of 2] ['a', 'b', 'c'] =
      some ([F64.of 1, F64.of 2], ['b', 'c']) ∧
    sparsify dist1 (fun _ => 1) 2 (fun n => (List.range n).reverse) (fun _ => F64.nan) [F64.of 0, F64.of 1, F64.of 2] ['a', 'b', 'c'] =
      some ([F64.of 0, F64.of 1], ['a', 'b']) := by
  decide +kernel

/-- **C50** fails on overflow: when the distances overflow no point is found to be the densest, and all points are kept. -/
theorem C50_overflow_keeps_too_many :
    sparsify dist1 (fun _ => 1) 2 (fun n => List.range n) (fun _ => F64.nan) [F64.of 0, F64.of (2 ^ 600), F64.of (2 ^ 601)] ['a', 'b', 'c'] =
      some ([F64.of 0, F64.of (2 ^ 600), F64.of (2 ^ 601)], ['a', 'b', 'c']) := by
  decide +kernel

/-- **C50** needs `max_points ≥ dim`: otherwise `partial_sort` is called with a middle iterator past the end. -/
theorem C50_small_limit_is_undefined (d : β → β → α) (dim : β → Nat) (sched : Nat → List Nat) (diag : Nat → α) (x y : β) (o : List γ)
    (hD : 2 ≤ dim x) (hs : (sched 2).Perm (List.range 2)) : sparsify d dim 1 sched diag [x, y] o = none := by
  unfold sparsify
  rw [show limit 1 = 1 from rfl]
  unfold thinLoop
  simp only [List.length_cons, List.length_nil]
  have hc : ∀ dist : Nat → Nat → α, ∀ i < 2, crowding (dim x) 2 dist i = none := by
    intro dist i hi
    unfold crowding smallest
    rw [if_neg]
    · rfl
    · rintro ⟨h, _⟩
      unfold neighbors at h
      rw [List.length_eraseIdx] at h
      simp [hi] at h
      omega
  rw [if_pos (by omega)]
  cases e : sched 2 with
  | nil => rw [e] at hs; simpa using hs.length_eq
  | cons a l =>
    have ha : a < 2 := by
      have : a ∈ List.range 2 := hs.mem_iff.1 (by rw [e]; simp)
      simpa using this
    simp only [mostDense, List.foldl_cons, Option.bind_some, hc _ a ha, Option.map_none]
    have : ∀ (g : Nat → α × Option Nat → Option (α × Option Nat)) (l : List Nat),
        l.foldl (fun (s? : Option (α × Option Nat)) i => s?.bind (g i)) none = none := by
      intro g l; induction l with
      | nil => rfl
      | cons b l ih => simpa using ih
    rw [this]; rfl

/-- the hypotheses of C50/C51 are met by three binary64 points of which one must go -/
example : DistFinite dist1 1 [F64.of 0, F64.of 1, F64.of 3] ∧
    sparsify dist1 (fun _ => 1) 2 (fun n => List.range n) (fun _ => F64.nan) [F64.of 0, F64.of 1, F64.of 3] ['a', 'b', 'c'] =
      some ([F64.of 1, F64.of 3], ['b', 'c']) := by
  refine ⟨⟨by decide +kernel, ?_⟩, by decide +kernel⟩
  intro l hl ha
  obtain ⟨a, rfl⟩ := List.length_eq_one_iff.1 hl
  obtain ⟨x, hx, y, hy, rfl⟩ := ha a (by simp)
  have : ∀ x ∈ [F64.of 0, F64.of 1, F64.of 3], ∀ y ∈ [F64.of 0, F64.of 1, F64.of 3],
      lt (List.foldl (· + ·) (lit 0) [dist1 x y]) (lit ((2 ^ 53 - 1) * 2 ^ 971) : F64) = true := by decide +kernel
  exact this x hx y hy

/-! ### the Gaussian process -/

open Gp

variable {E : GpEnv} {A : GpAbs} {st : GpState E} {din dout : Nat}

theorem kept_of_greedy {maxPoints : Int} (hm : 0 ≤ maxPoints) {xs ys xs' ys' : List (List ℝ)} (hl : ys.length = xs.length)
    (hl' : ys'.length = xs'.length) (h : GreedyThin (MostRedundant din) maxPoints.toNat (xs.zip ys) (xs'.zip ys')) :
    Kept maxPoints din xs ys xs' ys' := by
  refine ⟨hl', ?_, h.sublist.1, h⟩
  have := h.sublist.2
  rw [List.length_zip, List.length_zip, hl', hl] at this
  omega

theorem Kept.dataSet {maxPoints : Int} {xs ys xs' ys' : List (List ℝ)} (h : Kept maxPoints din xs ys xs' ys') (hm : 0 < maxPoints)
    (hd : DataSet xs ys din dout) : DataSet xs' ys' din dout := by
  have hx : ∀ x ∈ xs', x ∈ xs := by
    intro x hx
    have e : xs' = (xs'.zip ys').map Prod.fst := (List.map_fst_zip (by rw [h.same])).symm
    rw [e] at hx
    obtain ⟨p, hp, rfl⟩ := List.mem_map.1 hx
    exact (List.of_mem_zip (h.pairs.subset hp)).1
  have hy : ∀ y ∈ ys', y ∈ ys := by
    intro y hy
    have e : ys' = (xs'.zip ys').map Prod.snd := (List.map_snd_zip (by rw [h.same])).symm
    rw [e] at hy
    obtain ⟨p, hp, rfl⟩ := List.mem_map.1 hy
    exact (List.of_mem_zip (h.pairs.subset hp)).2
  refine ⟨?_, h.same, fun x hx' => hd.inputs x (hx x hx'), fun y hy' => hd.outputs y (hy y hy'), hd.din_pos, hd.dout_pos⟩
  intro e
  have h1 := h.size
  have h2 := List.length_pos_iff.2 hd.nonempty
  rw [e] at h1
  simp at h1
  omega

theorem sparsify_real {maxPoints : Int} {sched : Nat → List Nat} (hmax : (din : Int) ≤ maxPoints) (hs : ∀ n, (sched n).Perm (List.range n))
    (diag : Nat → XR) {xs ys : List (List ℝ)} (hd : DataSet xs ys din dout)
    (hfin : ∀ x ∈ xs, ∀ y ∈ xs, din * euclid x y < (2 ^ 53 - 1) * 2 ^ 971) :
    ∃ xs' ys', sparsify (fun x y => XR.fin (dist2 x y)) List.length maxPoints sched diag xs ys = some (xs', ys') ∧
      Kept maxPoints din xs ys xs' ys' := by
  obtain ⟨xs', ys', e, hl, hg⟩ := C51_removes_most_crowded (α := XR) (dim := List.length) hmax hs diag hd.same hd.inputs
    (distFinite_real hd.din_pos hfin)
  refine ⟨xs', ys', e, kept_of_greedy (by omega) hd.same hl ?_⟩
  refine GreedyThin.mono (P := fun _ => True) (fun _ _ _ => trivial) ?_ hg trivial
  intro xs i _ hi hp j hj
  have := hp j hj
  rw [crowd_real _ _ hi, crowd_real _ _ hj, XR.le_fin] at this
  exact this

/-- **C50/C51** for `compute`: the call succeeds, the GP then holds `min(N, max_points)` of the given pairs in the original order, selected
by repeatedly removing a most redundant point, and is fitted to exactly these (`GpReach` with every flag set gives all the properties of a
fitted GP: data, predictions, likelihood). -/
theorem C50_compute (hE : LawfulEnv E) (hr : GpReach E A st) (c : SparseGp.Ctx) (hmax : (din : Int) ≤ c.maxPoints)
    (hs : ∀ n, (c.sched n).Perm (List.range n)) {xs ys : List (List ℝ)} (hd : DataSet xs ys din dout)
    (hfin : ∀ x ∈ xs, ∀ y ∈ xs, din * euclid x y < (2 ^ 53 - 1) * 2 ^ 971) :
    ∃ s xs' ys', SparseGp.compute c st xs ys true = some s ∧ Kept c.maxPoints din xs ys xs' ys' ∧
      samplesOf s = xs' ∧ observationsOf s = ys' ∧ GpReach E ⟨xs', ys', true, true, true, true⟩ s := by
  have hdp := hd.din_pos
  have hlim : limit c.maxPoints = c.maxPoints.toNat := by unfold limit; rw [if_neg (by omega)]
  have fit : ∀ {xs' ys' : List (List ℝ)}, DataSet xs' ys' din dout → ∃ s, Gp.compute c.junk st xs' ys' true = some s ∧
      samplesOf s = xs' ∧ observationsOf s = ys' ∧ GpReach E ⟨xs', ys', true, true, true, true⟩ s := by
    intro xs' ys' hd'
    obtain ⟨s, h1, -⟩ := C43_fit_never_fails hE hr xs' ys' hd' c.junk
    have hr' : GpReach E ⟨xs', ys', true, true, true, true⟩ s := hr.step (op := .compute xs' ys' true) trivial h1
    exact ⟨s, h1, (C65_data hE hr').1, (C65_data hE hr').2, hr'⟩
  unfold SparseGp.compute
  rw [hlim]
  by_cases hle : xs.length ≤ c.maxPoints.toNat
  · rw [if_pos hle]
    obtain ⟨s, h1, h2, h3, h4⟩ := fit hd
    exact ⟨s, xs, ys, h1, kept_of_greedy (by omega) hd.same hd.same (.stop (by rw [List.length_zip, hd.same]; omega)), h2, h3, h4⟩
  · rw [if_neg hle]
    obtain ⟨xs', ys', e, hk⟩ := sparsify_real hmax hs c.diag hd hfin
    rw [e]
    obtain ⟨s, h1, h2, h3, h4⟩ := fit (hk.dataSet (by omega) hd)
    exact ⟨s, xs', ys', h1, hk, h2, h3, h4⟩

/-- **C50/C51** for `add_sample`: the new pair is appended and, if that exceeds `max_points`, the data are thinned as by `compute`. -/
theorem C50_add_sample (hE : LawfulEnv E) (hr : GpReach E A st) (hk : A.k = true) (junk : Nat → Nat → ℝ) (c : SparseGp.Ctx)
    (hmax : (din : Int) ≤ c.maxPoints) (hs : ∀ n, (c.sched n).Perm (List.range n)) {x y : List ℝ}
    (hd : DataSet (A.xs ++ [x]) (A.ys ++ [y]) din dout)
    (hfin : ∀ a ∈ A.xs ++ [x], ∀ b ∈ A.xs ++ [x], din * euclid a b < (2 ^ 53 - 1) * 2 ^ 971) :
    ∃ s xs' ys', SparseGp.addSample junk c st x y = some s ∧ Kept c.maxPoints din (A.xs ++ [x]) (A.ys ++ [y]) xs' ys' ∧
      samplesOf s = xs' ∧ observationsOf s = ys' ∧ GpReach E ⟨xs', ys', true, true, true, true⟩ s := by
  have hdp := hd.din_pos
  have hlim : limit c.maxPoints = c.maxPoints.toNat := by unfold limit; rw [if_neg (by omega)]
  obtain ⟨s0, h0, -⟩ := C43_add_sample_never_fails hE hr hk x y hd junk
  have hr0 : GpReach E (A.step (.add x y)) s0 := hr.step (op := .add x y) trivial h0
  have hA : A.step (.add x y) = ⟨A.xs ++ [x], A.ys ++ [y], true, true, true, true⟩ := by simp [GpAbs.step, hk]
  rw [hA] at hr0
  obtain ⟨hx, hy⟩ := C65_data hE hr0
  unfold SparseGp.addSample
  rw [h0]
  simp only [Option.bind_some]
  rw [hlim]
  have hsam : s0.samples = A.xs ++ [x] := hx
  by_cases hgt : s0.samples.length > c.maxPoints.toNat
  · rw [if_pos hgt]
    have hrows : s0.obs.rows = s0.samples.length := by
      have := congrArg List.length hy
      simp only [observationsOf, List.length_map, List.length_range] at this
      rw [this, hsam]
      exact hd.same
    have hobs : ((List.range s0.samples.length).map fun i => (List.range s0.obs.cols).map fun c => s0.obs.e i c) = A.ys ++ [y] := by
      rw [← hrows]; exact hy
    rw [hobs, hsam]
    exact C50_compute hE hr0 c hmax hs hd hfin
  · rw [if_neg hgt]
    rw [hsam] at hgt
    exact ⟨s0, _, _, rfl, kept_of_greedy (by omega) hd.same hd.same (.stop (by rw [List.length_zip, hd.same]; omega)), hx, hy, hr0⟩

/-- the hypotheses are met: three points of which one (two are equal) must go -/
example : ∃ st s xs' ys', SparseGp.compute ⟨2, fun n => (List.range n).reverse, fun _ => (Xt.nan : Xt ℝ), fun _ _ => 0⟩ st
    [[0, 1], [2, 3], [0, 1]] [[1], [5], [2]] true = some s ∧
    Kept 2 2 [[0, 1], [2, 3], [0, 1]] [[1], [5], [2]] xs' ys' ∧ GpReach exEnv ⟨xs', ys', true, true, true, true⟩ s := by
  obtain ⟨s, xs', ys', h, hk, -, -, hr⟩ := C50_compute (din := 2) exEnv_lawful (GpReach.new (0, 0))
    ⟨2, fun n => (List.range n).reverse, fun _ => (Xt.nan : Xt ℝ), fun _ _ => 0⟩ (by norm_num) (fun n => List.reverse_perm _) exData (by
      have hb : ∀ x ∈ ([[0, 1], [2, 3], [0, 1]] : List (List ℝ)), ∀ y ∈ ([[0, 1], [2, 3], [0, 1]] : List (List ℝ)), euclid x y ≤ 3 := by
        intro x hx y hy
        simp only [List.mem_cons, List.not_mem_nil, or_false] at hx hy
        unfold euclid
        apply Real.sqrt_le_iff.2
        refine ⟨by norm_num, ?_⟩
        rcases hx with rfl | rfl | rfl <;> rcases hy with rfl | rfl | rfl <;> simp [Finset.sum_range_succ, at'] <;> norm_num
      intro x hx y hy
      have h1 := hb x hx y hy
      refine lt_of_lt_of_le (b := (7 : ℝ)) (by push_cast; linarith) ?_
      have h3 : (1 : ℝ) ≤ 2 ^ 971 := one_le_pow₀ (by norm_num)
      generalize (2 : ℝ) ^ 971 = Z at h3 ⊢
      have h4 : (7 : ℝ) ≤ 2 ^ 53 - 1 := by norm_num
      generalize (2 : ℝ) ^ 53 - 1 = Y at h4 ⊢
      nlinarith)
  exact ⟨_, s, xs', ys', h, hk, hr⟩

end Limbo
