import Verif.Lemmas.SpgpRun

/-! When the calls on a sparse Gaussian process return. -/

namespace Limbo.Spgp

open Finset Matrix

variable {E : SpEnv}

theorem bind_ex {α β : Type} {x : SpRes α} {f : α → SpRes β} {a : α} (h : x = .ok a) (g : ∃ b, f a = .ok b) : ∃ b, x >>= f = .ok b := by
  rw [h]
  exact g

theorem colRange_zero {s : Mat} {n k : Nat} : colRange s n k = 0 ↔ ∀ i ≤ n, ∀ j ≤ n, s.e i k = s.e j k := by
  unfold colRange
  rw [sub_eq_zero]
  constructor
  · intro h i hi j hj
    have a1 := le_sup' (fun i => s.e i k) (mem_range.mpr (Nat.lt_succ_of_le hi))
    have a2 := le_sup' (fun i => s.e i k) (mem_range.mpr (Nat.lt_succ_of_le hj))
    have b1 := inf'_le (fun i => s.e i k) (mem_range.mpr (Nat.lt_succ_of_le hi))
    have b2 := inf'_le (fun i => s.e i k) (mem_range.mpr (Nat.lt_succ_of_le hj))
    refine le_antisymm ?_ ?_
    · exact (a1.trans h.le).trans b2
    · exact (a2.trans h.le).trans b1
  · intro h
    have hc : ∀ i ∈ range (n + 1), s.e i k = s.e 0 k := fun i hi => h i (Nat.le_of_lt_succ (mem_range.mp hi)) 0 (Nat.zero_le _)
    refine le_antisymm ?_ ?_
    · refine sup'_le _ _ fun i hi => le_inf' _ _ fun j hj => ?_
      rw [hc i hi, hc j hj]
    · exact (inf'_le (fun i => s.e i k) (mem_range.mpr (Nat.succ_pos n))).trans (le_sup' (fun i => s.e i k) (mem_range.mpr (Nat.succ_pos n)))

theorem colRange_nonneg (s : Mat) (n k : Nat) : 0 ≤ colRange s n k :=
  sub_nonneg.mpr ((inf'_le (fun i => s.e i k) (mem_range.mpr (Nat.succ_pos n))).trans (le_sup' (fun i => s.e i k) (mem_range.mpr (Nat.succ_pos n))))

theorem meanSq_zero {o : Mat} (hc : o.cols = 1) (hr : 0 < o.rows) : meanSq o = 0 ↔ ∀ i < o.rows, o.e i 0 = 0 := by
  unfold meanSq
  rw [hc, Nat.mul_one, div_eq_zero_iff]
  have h1 : ¬ ((o.rows : Nat) : ℝ) = 0 := by exact_mod_cast hr.ne'
  simp only [h1, or_false, range_one, sum_singleton]
  rw [sum_eq_zero_iff_of_nonneg fun i _ => sq_nonneg _]
  simp

theorem meanSq_nonneg (o : Mat) : 0 ≤ meanSq o :=
  div_nonneg (sum_nonneg fun _ _ => sum_nonneg fun _ _ => sq_nonneg _) (Nat.cast_nonneg _)

/-- The data admit a start vector. -/
structure Startable (P : SpParams) (M : MeanImpl) (xs ys : List (List ℝ)) (d : Nat) : Prop where
  enough : pseudoCount P xs.length ≤ xs.length
  spread : ∀ k < d, ∃ i < xs.length, ∃ j < xs.length, (xs.getD i []).getD k 0 ≠ (xs.getD j []).getD k 0
  signal : ∃ i : Fin xs.length, spResid M xs.length xs ys i ≠ 0

theorem startVector_iff {st : SpState E} {xs ys : List (List ℝ)} {d : Nat} (h : Holds st xs ys d 1) (hl : ys.length = xs.length) (hd : 0 < d)
    (perm : Nat → Nat) : (∃ w, startVector (updateM st) perm = .ok w) ↔ Startable E.P E.M xs ys d := by
  have hn : 0 < xs.length := List.length_pos_iff.mpr h.ne
  have hdim : st.dimIn.toNat = d := by rw [h.dimIn]; rfl
  have hzc : st.obsZm.cols = 1 := by rw [h.zm]; exact h.ocols
  have hzr : st.obsZm.rows = xs.length := by rw [h.zm]; exact h.orows.trans hl
  have hms : meanSq st.obsZm = 0 ↔ ∀ i : Fin xs.length, spResid E.M xs.length xs ys i = 0 := by
    rw [meanSq_zero hzc (by rw [hzr]; exact hn), hzr]
    constructor
    · intro g i
      rw [← h.resid_eq hd hl i]
      exact g i i.2
    · intro g i hi
      rw [h.resid_eq hd hl ⟨i, hi⟩]
      exact g ⟨i, hi⟩
  have hcr : ∀ k < d, colRange st.samples (xs.length - 1) k = 0 ↔ ∀ i < xs.length, ∀ j < xs.length, (xs.getD i []).getD k 0 = (xs.getD j []).getD k 0 := by
    intro k hk
    rw [colRange_zero]
    constructor
    · intro g i hi j hj
      have := g i (by omega) j (by omega)
      rwa [h.se i hi k hk, h.se j hj k hk] at this
    · intro g i hi j hj
      rw [h.se i (by omega) k hk, h.se j (by omega) k hk]
      exact g i (by omega) j (by omega)
  unfold startVector
  simp only [updateM, h.srows, hdim]
  constructor
  · rintro ⟨w, hw⟩
    split_ifs at hw with c1 c2
    push Not at c1
    simp only [Bool.or_eq_true, List.any_eq_true, List.mem_range, decide_eq_true_eq, not_or, not_exists, not_and] at c2
    refine ⟨c1.2, fun k hk => ?_, ?_⟩
    · have := c2.1 k hk
      rw [hcr k hk] at this
      push Not at this
      exact this
    · have := c2.2
      rw [hms] at this
      push Not at this
      exact this
  · rintro ⟨e1, e2, e3⟩
    rw [if_neg (by omega), if_neg]
    · exact ⟨_, rfl⟩
    · simp only [Bool.or_eq_true, List.any_eq_true, List.mem_range, decide_eq_true_eq, not_or, not_exists, not_and]
      refine ⟨fun k hk => ?_, ?_⟩
      · rw [hcr k hk]
        push Not
        exact e2 k hk
      · rw [hms]
        push Not
        exact e3

theorem startVector_length {st : SpState E} {perm : Nat → Nat} {w : List ℝ} (h : startVector st perm = .ok w) :
    w.length = (st.m + 1) * st.dimIn.toNat + 2 := by
  unfold startVector at h
  simp only at h
  split_ifs at h
  cases h
  simp only [List.length_append, List.length_flatMap, List.length_map, List.length_range, List.length_cons, List.length_nil, List.map_const', List.sum_replicate,
    smul_eq_mul, Nat.succ_mul]

theorem optimizeHp_total {perm : Nat → Nat} {st : SpState E} {w0 : List ℝ} (hi : st.optimizeInit = true) (hw : startVector (updateM st) perm = .ok w0)
    (ho : ∀ obj, ∃ w, E.hpOpt obj w0 false = .ok w ∧ w0.length ≤ w.length) : ∃ st', optimizeHp perm st = .ok st' := by
  unfold optimizeHp
  simp only [if_pos hi]
  obtain ⟨w, h1, h2⟩ := ho (likelihood { updateM st with
    wInit := w0
    optimizeInit := false })
  have h3 : (pseudoCount E.P st.samples.rows + 1) * st.dimIn.toNat + 2 ≤ w.length := by
    rw [startVector_length hw] at h2
    exact h2
  have h4 : ∃ hp, unpack w (pseudoCount E.P st.samples.rows) st.dimIn.toNat = some hp := ⟨_, by unfold unpack; exact if_pos h3⟩
  obtain ⟨hp, h4⟩ := h4
  refine bind_ex hw (bind_ex rfl (bind_ex h1 ?_))
  simp only [updateM]
  rw [h4]
  exact ⟨_, rfl⟩

theorem compute'_total {perm : Nat → Nat} {st st0 : SpState E} (hi : st.optimizeInit = true) (h0 : optimizeHp perm st = .ok st0)
    (hc : st.samples.cols = st.dimIn.toNat) (hz : st.obsZm.rows = st.samples.rows) (hz1 : st.obsZm.cols = 1) : ∃ st', compute' perm st = .ok st' := by
  obtain ⟨w0, w, st1, hp, -, hs, -, -, -, e⟩ := optimizeHp_ok hi h0
  unfold compute'
  rw [h0]
  change ∃ st', (kernelMatrix st0 st0.pseudo st0.pseudo >>= _) = _
  have hk : ∀ q, q.cols = st0.b.length → kernelMatrix st0 st0.pseudo q = _ := fun q hq => by
    unfold kernelMatrix
    rw [if_pos ⟨by rw [e]; simp [matOf], hq⟩]
  rw [hk _ (by rw [e]; simp [matOf])]
  change ∃ st', (kernelMatrix st0 st0.pseudo st0.samples >>= _) = _
  rw [hk _ (by rw [e]; simp only [List.length_map, List.length_finRange]; rw [hs.samples, hs.dimIn, hc])]
  refine ⟨_, if_pos ⟨?_, ?_, ?_⟩⟩
  · rw [e]; rfl
  · rw [e]; simp only; rw [hs.obsZm, hs.samples, hz]
  · rw [e]; simp only; rw [hs.obsZm, hz1]

/-- A call on data that form a proper data set reaches the computation. -/
theorem step_reaches {st : SpState E} {D : List (List ℝ) × List (List ℝ)} {op : Op} {d : Nat} (hst : Inv st D)
    (hD : DataSet (heldStep D op).1 (heldStep D op).2 d 1) :
    ∃ st1, Holds st1 (heldStep D op).1 (heldStep D op).2 d 1 ∧ st1.optimizeInit = true
      ∧ step st op = if op.refits then compute' op.perm st1 else optimizeHp op.perm st1 := by
  have tm : ∀ {xs : List (List ℝ)} {q : Nat}, xs ≠ [] → (∀ x ∈ xs, x.length = q) → ∃ m, toMatrix xs = .ok m ∧ m.rows = xs.length := by
    intro xs q hne hx
    cases xs with
    | nil => exact absurd rfl hne
    | cons x xs =>
      unfold toMatrix
      simp only
      rw [if_pos]
      · exact ⟨_, rfl, rfl⟩
      · simp only [List.all_eq_true, decide_eq_true_eq]
        intro y hy
        rw [hx y hy, hx x (by simp)]
  have dims : ∀ {xs ys : List (List ℝ)} {d' p' : Nat} {s : SpState E}, DataSet xs ys d 1 → Holds s xs ys d' p' → Holds s xs ys d 1 := by
    intro xs ys d' p' s hD h
    obtain ⟨x, hx⟩ := List.exists_mem_of_ne_nil _ h.ne
    have hy0 : ys ≠ [] := by
      intro e
      have := hD.same
      rw [e] at this
      exact h.ne (List.length_eq_zero_iff.mp this.symm)
    obtain ⟨y, hy⟩ := List.exists_mem_of_ne_nil _ hy0
    have e1 : d' = d := by rw [← h.xlen x hx, hD.inputs x hx]
    have e2 : p' = 1 := by rw [← h.ylen y hy, hD.outputs y hy]
    rwa [e1, e2] at h
  cases op with
  | compute s o p =>
    have hD' : DataSet s o d 1 := hD
    have ho0 : o ≠ [] := by
      intro e
      have := hD'.same
      rw [e] at this
      exact hD'.nonempty (List.length_eq_zero_iff.mp this.symm)
    obtain ⟨sm, hs, hsr⟩ := tm hD'.nonempty hD'.inputs
    obtain ⟨om, ho, hor⟩ := tm ho0 hD'.outputs
    have hn := List.length_pos_iff.mpr hD'.nonempty
    have hz : ¬ (sm.rows = 0 ∨ om.rows = 0 ∨ sm.rows ≠ om.rows) := by
      rw [hsr, hor, hD'.same]
      omega
    have hinit : ∃ st1, init { st with optimizeInit := true } sm om = .ok st1 := by
      unfold init computeObservationsZm
      simp only
      rw [if_pos (by rw [hsr, hor, hD'.same])]
      exact ⟨_, rfl⟩
    obtain ⟨st1, h1⟩ := hinit
    obtain ⟨⟨d', p', hd⟩, hi, -⟩ := init_ok hs ho h1
    refine ⟨st1, dims hD' hd, hi, ?_⟩
    change Spgp.compute p st s o = compute' p st1
    unfold Spgp.compute
    rw [hs, ho]
    change (if sm.rows = 0 ∨ om.rows = 0 ∨ sm.rows ≠ om.rows then _ else _) = _
    rw [if_neg hz, h1]
    rfl
  | add x y p =>
    have hD' : DataSet (D.1 ++ [x]) (D.2 ++ [y]) d 1 := hD
    have hx : x.length = d := hD'.inputs x (by simp)
    have hy : y.length = 1 := hD'.outputs y (by simp)
    have hpre : ∃ st1, preAdd st x y = .ok st1 := by
      unfold preAdd
      rcases hst with ⟨e1, e2, he⟩ | ⟨d', p', hd⟩
      · simp only [if_pos he.1]
        unfold computeObservationsZm
        exact ⟨_, SpRes.bind_mk rfl (SpRes.bind_mk (if_pos (by simp only [updateM]; rw [he.1, he.2])) rfl)⟩
      · have hne : ¬ st.samples.rows = 0 := by
          rw [hd.srows]
          exact fun e => hd.ne (List.length_eq_zero_iff.mp e)
        have hlen : D.2.length = D.1.length := by
          have := hD'.same
          simpa using this
        obtain ⟨z, hz⟩ := List.exists_mem_of_ne_nil _ hd.ne
        have hy0 : D.2 ≠ [] := by
          intro e
          rw [e] at hlen
          exact hd.ne (List.length_eq_zero_iff.mp hlen.symm)
        obtain ⟨z', hz'⟩ := List.exists_mem_of_ne_nil _ hy0
        have e1 : d' = d := by rw [← hd.xlen z hz, hD'.inputs z (by simp [hz])]
        have e2 : p' = 1 := by rw [← hd.ylen z' hz', hD'.outputs z' (by simp [hz'])]
        simp only [if_neg hne]
        rw [if_pos ⟨by rw [hd.dimIn, hx, e1], by rw [hd.dimOut, hy, e2]⟩]
        unfold computeObservationsZm
        exact ⟨_, SpRes.bind_mk rfl (SpRes.bind_mk (if_pos (by simp only [updateM]; rw [hd.srows, hd.orows, hlen])) rfl)⟩
    obtain ⟨st1, h1⟩ := hpre
    obtain ⟨⟨d', p', hd⟩, hi, -⟩ := preAdd_ok hst h1
    refine ⟨st1, dims hD' hd, hi, ?_⟩
    change addSample p st x y = compute' p st1
    rw [addSample_eq, h1]
    rfl
  | recompute p =>
    have hD' : DataSet D.1 D.2 d 1 := hD
    rcases hst with ⟨e1, -, -⟩ | ⟨d', p', hd⟩
    · exact absurd e1 hD'.nonempty
    · exact ⟨{ st with optimizeInit := true }, dims hD' (hd.same ⟨rfl, rfl, rfl, rfl, rfl, rfl, rfl, rfl⟩), rfl, rfl⟩
  | optimizeHyperparams p =>
    have hD' : DataSet D.1 D.2 d 1 := hD
    rcases hst with ⟨e1, -, -⟩ | ⟨d', p', hd⟩
    · exact absurd e1 hD'.nonempty
    · exact ⟨{ st with optimizeInit := true }, dims hD' (hd.same ⟨rfl, rfl, rfl, rfl, rfl, rfl, rfl, rfl⟩), rfl, rfl⟩

/-- A call on a proper data set returns exactly if the data admit a start vector. -/
theorem step_returns {st : SpState E} {D : List (List ℝ) × List (List ℝ)} {op : Op} {d : Nat} (hst : Inv st D)
    (hD : DataSet (heldStep D op).1 (heldStep D op).2 d 1)
    (ho : ∀ obj w0, ∃ w, E.hpOpt obj w0 false = .ok w ∧ w0.length ≤ w.length) :
    (∃ st', step st op = .ok st') ↔ Startable E.P E.M (heldStep D op).1 (heldStep D op).2 d := by
  obtain ⟨st1, hd, hi, e⟩ := step_reaches hst hD
  rw [e, ← startVector_iff hd hD.same hD.din_pos op.perm]
  have hopt : (∃ st', optimizeHp op.perm st1 = .ok st') ↔ ∃ w, startVector (updateM st1) op.perm = .ok w := by
    constructor
    · rintro ⟨st', h⟩
      obtain ⟨w0, -, -, -, hw, -⟩ := optimizeHp_ok hi h
      exact ⟨w0, hw⟩
    · rintro ⟨w, hw⟩
      exact optimizeHp_total hi hw fun obj => ho obj w
  by_cases hr : op.refits = true
  · simp only [if_pos hr]
    rw [← hopt]
    constructor
    · rintro ⟨st', h⟩
      unfold compute' at h
      obtain ⟨s0, h0, -⟩ := SpRes.bind_ok h
      exact ⟨s0, h0⟩
    · rintro ⟨s0, h0⟩
      exact compute'_total hi h0 (by rw [hd.scols, hd.dimIn]; rfl) (by rw [hd.zm]; simp only; rw [hd.orows, hd.srows, hD.same]) (by rw [hd.zm]; exact hd.ocols)
  · simp only [if_neg hr]
    exact hopt

end Limbo.Spgp

namespace Limbo.Spgp

variable {E : SpEnv}

theorem startVector_single {st : SpState E} {x : List ℝ} {ys : List (List ℝ)} {d p : Nat} (h : Holds st [x] ys d p) (hd : 0 < d) (perm : Nat → Nat) (w : List ℝ) :
    startVector (updateM st) perm ≠ .ok w := by
  intro e
  have hdim : st.dimIn.toNat = d := by rw [h.dimIn]; rfl
  unfold startVector at e
  simp only [updateM, h.srows, hdim, List.length_singleton] at e
  have key : (List.range d).any (fun k => decide (colRange st.samples (1 - 1) k = 0)) = true := by
    refine List.any_eq_true.mpr ⟨0, List.mem_range.mpr hd, decide_eq_true (colRange_zero.mpr fun i hi j hj => ?_)⟩
    have hi' : i = 0 := by omega
    have hj' : j = 0 := by omega
    rw [hi', hj']
  rw [key, Bool.true_or, if_pos rfl] at e
  split_ifs at e <;> cases e

theorem held_keeps (ops : List Op) (hs : ops.any Op.sets = false) (D : List (List ℝ) × List (List ℝ)) {x : List ℝ} (hx : x ∈ D.1) :
    x ∈ (ops.foldl heldStep D).1 := by
  induction ops generalizing D with
  | nil => exact hx
  | cons op ops ih =>
    rw [List.any_cons, Bool.or_eq_false_iff] at hs
    refine ih hs.2 _ ?_
    cases op with
    | compute s o p => exact absurd hs.1 (by simp [Op.sets])
    | add a b p => exact List.mem_append_left _ hx
    | recompute p => exact hx
    | optimizeHyperparams p => exact hx

/-- A history of calls all of which return contains a call or constructor that gives the object a whole data set. -/
theorem sets_of_ok {s : Start} {ops : List Op} {st : SpState E} (hne : ops ≠ []) (h : make E s >>= (run · ops) = .ok st)
    (hx : ∀ x ∈ (held s ops).1, x ≠ []) : (s.sets || ops.any Op.sets) = true := by
  by_contra hns
  rw [Bool.not_eq_true, Bool.or_eq_false_iff] at hns
  obtain ⟨h1, h2⟩ := hns
  have h0 : heldStart s = ([], []) := by
    cases s with
    | default u => rfl
    | dims u i o => rfl
    | data u a b => exact absurd h1 (by simp [Start.sets])
  obtain ⟨sa, ha, h⟩ := SpRes.bind_ok h
  obtain ⟨hia, -⟩ := make_inv ha
  rw [h0] at hia
  cases ops with
  | nil => exact hne rfl
  | cons op ops =>
    rw [List.any_cons, Bool.or_eq_false_iff] at h2
    have h' : (step sa op >>= fun z => run z ops) = .ok st := h
    obtain ⟨sb, hb, -⟩ := SpRes.bind_ok h'
    obtain ⟨s1, d, p, hd, hi, -, hc⟩ := step_ok hia hb
    have hop : ∃ w, startVector (updateM s1) op.perm = .ok w := by
      have hopt : ∀ z, optimizeHp op.perm s1 = .ok z → ∃ w, startVector (updateM s1) op.perm = .ok w := by
        intro z hz
        obtain ⟨w0, -, -, -, hw, -⟩ := optimizeHp_ok hi hz
        exact ⟨w0, hw⟩
      split_ifs at hc
      · unfold compute' at hc
        obtain ⟨z, hz, -⟩ := SpRes.bind_ok hc
        exact hopt z hz
      · exact hopt _ hc
    obtain ⟨w, hw⟩ := hop
    cases op with
    | compute a b p => exact absurd h2.1 (by simp [Op.sets])
    | add x y p =>
      have hxm : x ∈ (held s (.add x y p :: ops)).1 := by
        rw [held, h0, List.foldl_cons]
        exact held_keeps ops h2.2 _ (by simp [heldStep])
      have hdpos : 0 < d := by
        rw [← hd.xlen x (by simp [heldStep])]
        exact List.length_pos_iff.mpr (hx x hxm)
      exact startVector_single hd hdpos _ w hw
    | recompute p => exact hd.ne rfl
    | optimizeHyperparams p => exact hd.ne rfl

end Limbo.Spgp
