import Verif.Lemmas.Parego
import Verif.Props.Gp
import Verif.Props.GpSave
import Mathlib.Algebra.Order.BigOperators.Group.List

/-! C61: the ParEGO model. -/

namespace Limbo

open Parego

variable {E : GpEnv} {rho : ℝ}

/-- **C61**: after any sequence of calls (`compute`, `add_sample`, and the inherited functions that do not replace the data) that does not
fail, with random vectors whose sum is not zero: the model is exactly a GP whose samples are the samples given so far and whose
observations are, one for each sample, the augmented Tchebycheff values of the given vector observations, all for the one random vector
drawn in the last `compute` / `add_sample`.  So every theorem on the GP applies to it. -/
theorem C61_scalarisation (hE : LawfulEnv E) (start st : St E)
    (h0 : (∃ u n, start = new E u n) ∨ ∃ u din dout, start = newDims E u din dout) {ops : List (Op × Ctx)}
    (hp : ∀ o ∈ ops, o.1.Proper ∧ ∀ n, 0 < n → (o.2.randomVector n).sum ≠ 0) (h : run rho start ops = some st) :
    let A := Abs.run ⟨[], [], []⟩ ops
    (∃ G, GpReach E G st.gp ∧ G.xs = A.xs ∧ List.Forall₂ (fun y z => ∃ v, z = [v] ∧ AugTchebycheff rho A.r y v) A.ys G.ys) ∧
    Gp.samplesOf st.gp = A.xs ∧ List.Forall₂ (fun y z => ∃ v, z = [v] ∧ AugTchebycheff rho A.r y v) A.ys (Gp.observationsOf st.gp) := by
  intro A
  have hI : Inv rho A st := by
    rcases h0 with ⟨u, n, rfl⟩ | ⟨u, din, dout, rfl⟩
    · exact run_inv hE ops (new_inv rho u n) hp h
    · exact run_inv hE ops (newDims_inv rho u din dout) hp h
  obtain ⟨G, hG, h1, h2⟩ := hI.reach
  have hf : List.Forall₂ (fun y z => ∃ v, z = [v] ∧ AugTchebycheff rho A.r y v) A.ys G.ys := by
    rw [h2, List.forall₂_map_right_iff, List.forall₂_same]
    intro y hy
    exact ⟨_, rfl, (scal_spec rho A.r y (hI.sum (List.ne_nil_of_mem hy)) (hI.sizes y hy).symm).2⟩
  obtain ⟨d1, d2⟩ := C65_data hE hG
  exact ⟨⟨G, hG, h1, hf⟩, by rw [d1, h1], by rw [d2]; exact hf⟩

/-- **C61**: the value is determined by the weights and the objectives. -/
theorem C61_unique {r x : List ℝ} {v v' : ℝ} (h : AugTchebycheff rho r x v) (h' : AugTchebycheff rho r x v') : v = v' := by
  obtain ⟨-, m, hm, rfl⟩ := h
  obtain ⟨-, m', hm', rfl⟩ := h'
  rw [hm.unique hm']

/-- **C61**: a call with data of matching sizes never fails (for a random vector whose sum is not zero). -/
theorem C61_calls_succeed (hE : LawfulEnv E) (start st : St E)
    (h0 : (∃ u n, start = new E u n) ∨ ∃ u din dout, start = newDims E u din dout) {ops : List (Op × Ctx)}
    (hp : ∀ o ∈ ops, o.1.Proper ∧ ∀ n, 0 < n → (o.2.randomVector n).sum ≠ 0) (h : run rho start ops = some st) (c : Ctx)
    (hc : ∀ n, 0 < n → (c.randomVector n).sum ≠ 0) {din dout : Nat} :
    let A := Abs.run ⟨[], [], []⟩ ops
    (∀ xs ys, DataSet xs ys din dout → ∃ st', step rho st (.compute xs ys) c = some st') ∧
    ∀ x y, DataSet (A.xs ++ [x]) (A.ys ++ [y]) din dout → ∃ st', step rho st (.add x y) c = some st' := by
  intro A
  have hI : Inv rho A st := by
    rcases h0 with ⟨u, n, rfl⟩ | ⟨u, din, dout, rfl⟩
    · exact run_inv hE ops (new_inv rho u n) hp h
    · exact run_inv hE ops (newDims_inv rho u din dout) hp h
  obtain ⟨G, hG, h1, h2⟩ := hI.reach
  have main : ∀ (xs ys : List (List ℝ)) (s : List (List ℝ)) (n : Nat) (raw : List (List ℝ)), DataSet xs ys din dout →
      ∃ st', compute rho c ⟨{ st.gp with samples := s }, n, raw⟩ xs ys = some st' := by
    intro xs ys s n raw hd
    have hys : ys ≠ [] := by
      intro e
      have := hd.same
      rw [e] at this
      exact hd.nonempty (List.length_eq_zero_iff.1 this.symm)
    obtain ⟨y0, ys0, rfl⟩ := List.exists_cons_of_ne_nil hys
    have hlen : ∀ y ∈ y0 :: ys0, (c.randomVector y0.length).length = y.length := by
      intro y hy
      rw [hd.outputs y hy, hd.outputs y0 (by simp)]
      simp [Ctx.randomVector]
    have hsum : (c.randomVector y0.length).sum ≠ 0 := hc _ (by rw [hd.outputs y0 (by simp)]; exact hd.dout_pos)
    have hfin := scalarizeObs_fin rho _ _ hsum hlen
    rw [Option.bind_eq_some_iff] at hfin
    obtain ⟨zs, hz1, hz2⟩ := hfin
    have hd' : DataSet xs ((y0 :: ys0).map fun y => [scal rho (c.randomVector y0.length) y]) din 1 :=
      ⟨hd.nonempty, by rw [List.length_map]; exact hd.same, hd.inputs, by simp, hd.din_pos, one_pos⟩
    obtain ⟨g, hg, -⟩ := Gp.track_compute hE c.junk (hG.tracks hE) hd' true
    refine ⟨⟨g, y0.length, y0 :: ys0⟩, ?_⟩
    simp only [compute]
    rw [hz1, Option.bind_some, hz2, Option.bind_some, compute_samples, hg]
    rfl
  refine ⟨fun xs ys hd => main xs ys st.gp.samples st.nbObjs st.raw hd, fun x y hd => ?_⟩
  have hs : st.gp.samples = A.xs := by rw [← h1]; exact (hG.tracks hE).samples
  simp only [step, addSample]
  rw [hs, hI.raw]
  exact main _ _ _ _ _ hd

/-- **C61**: larger objectives never get a smaller value, for weights and `rho` that are not negative (limbo maximises). -/
theorem C61_monotone {r x x' : List ℝ} {v v' : ℝ} (hr : ∀ a ∈ r, 0 ≤ a) (hrho : 0 ≤ rho) (hx : List.Forall₂ (fun a b => a ≤ b) x x')
    (h : AugTchebycheff rho r x v) (h' : AugTchebycheff rho r x' v') : v ≤ v' := by
  obtain ⟨hl, m, ⟨⟨i, hi, rfl⟩, -⟩, rfl⟩ := h
  obtain ⟨hl', m', ⟨-, hm'⟩, rfl⟩ := h'
  have hlen := hx.length_eq
  have hw : ∀ i, 0 ≤ r.getD i 0 / r.sum := by
    intro i
    refine div_nonneg ?_ (List.sum_nonneg hr)
    rcases lt_or_ge i r.length with hi | hi
    · rw [List.getD_eq_getElem _ _ hi]; exact hr _ (List.getElem_mem _)
    · rw [List.getD_eq_default _ _ hi]
  have hle : ∀ i, r.getD i 0 / r.sum * x.getD i 0 ≤ r.getD i 0 / r.sum * x'.getD i 0 := by
    intro i
    refine mul_le_mul_of_nonneg_left ?_ (hw i)
    rcases lt_or_ge i x.length with hi | hi
    · rw [List.getD_eq_getElem _ _ hi, List.getD_eq_getElem _ _ (by omega)]
      exact List.Forall₂.get hx hi (by omega)
    · rw [List.getD_eq_default _ _ hi, List.getD_eq_default _ _ (by omega)]
  have h1 := hm' ⟨i, by omega, rfl⟩
  have h2 : ((List.range x.length).map fun i => r.getD i 0 / r.sum * x.getD i 0).sum ≤
      ((List.range x'.length).map fun i => r.getD i 0 / r.sum * x'.getD i 0).sum := by
    rw [hlen]
    exact List.sum_le_sum fun i _ => hle i
  exact add_le_add ((hle i).trans h1) (mul_le_mul_of_nonneg_left h2 hrho)

/-- **C61, disagreement**: nothing excludes a random vector of zeros; it gives NaN for the (binary64) observation of every sample. -/
theorem C61_zero_weights_nan : scalarizeObs (F64.of (1 / 20)) [F64.of 0, F64.of 0] [[F64.of 1, F64.of 2], [F64.of 3, F64.of 0]] =
    some [[F64.nan], [F64.nan]] := by decide +kernel

/-- `load` gives the samples of the archive. -/
theorem load_samples {junk : Nat → Nat → ℝ} {st st' : GpState E} {a : Gp.Saved} {rc : Bool} (h : Gp.load junk st a rc = some st') :
    a.samples ≠ [] ∧ st'.samples = a.samples := by
  have hom : ∀ s s' : GpState E, Gp.computeObsMean junk s = some s' → s'.samples = s.samples := by
    intro s s' h
    unfold Gp.computeObsMean at h
    split_ifs at h
    simp only [Option.ite_none_right_eq_some, Option.some.injEq] at h
    rw [← h.2]
  have hal : ∀ s s' : GpState E, Gp.computeAlpha s = some s' → s'.samples = s.samples := by
    intro s s' h
    unfold Gp.computeAlpha at h
    split_ifs at h
    rw [← Option.some.inj h]
  have hfk : ∀ s s' : GpState E, Gp.computeFullKernel junk s = some s' → s'.samples = s.samples := by
    intro s s' h
    simp only [Gp.computeFullKernel, Option.bind_eq_bind, Option.bind_eq_some_iff, Option.some.injEq] at h
    obtain ⟨t, ht, rfl⟩ := h
    have := hal _ _ ht; exact this
  unfold Gp.load at h
  by_cases h0 : a.samples = []
  · rw [if_pos h0] at h; simp at h
  rw [if_neg h0] at h
  refine ⟨h0, ?_⟩
  simp only [Option.bind_eq_some_iff] at h
  obtain ⟨kf, -, mf, -, h⟩ := h
  cases rc with
  | false => simp only [Bool.false_eq_true, if_false, Option.some.injEq] at h; rw [← h]
  | true =>
    simp only [if_true, Gp.recompute, h0, if_false, Option.bind_eq_some_iff] at h
    obtain ⟨s1, h1, h2⟩ := h
    rw [hfk _ _ h2, hom _ _ h1]

/-- **C61, disagreement**: the vector observations are not part of the saved data.  Whatever archive is loaded into a new ParEGO model, no
sample can be added to it any more: the number of observations then never matches the number of samples. -/
theorem C61_no_add_after_load {u : ℝ × ℝ} {n : Nat} {a : Gp.Saved} {rc : Bool} {c c' : Ctx} {st : St E}
    (h : step rho (new E u n) (.inherited (.load a rc)) c = some st) (x y : List ℝ) : step rho st (.add x y) c' = none := by
  simp only [step, Option.map_eq_some_iff, Gp.step] at h
  obtain ⟨g, hg, rfl⟩ := h
  obtain ⟨h1, h2⟩ := load_samples hg
  have h3 := List.length_pos_of_ne_nil h1
  simp only [step, addSample, new, List.nil_append, compute]
  cases hzs : scalarizeObs (XR.fin rho) ((c'.randomVector y.length).map XR.fin) ([y].map fun y => y.map XR.fin) with
  | none => rfl
  | some zs =>
    cases hz : (zs.mapM fun (z : List XR) => z.mapM toReal) with
    | none => simp [hz]
    | some ws =>
      have hw : ws.length = 1 := by
        rw [mapM_length hz, mapM_length hzs]; rfl
      simp only [Option.bind_some, hz, Gp.compute]
      rw [if_pos (by right; right; simp only [List.length_append, List.length_singleton, hw]; rw [h2]; omega)]
      rfl

/-! a concrete case for the hypotheses of these theorems: two objectives, three samples, then a fourth one -/

/-- the random vector is `1/4, 3/4, 3/4, ...` -/
noncomputable def exCtx : Ctx := ⟨fun i => if i = 0 then 1 / 4 else 3 / 4, fun _ _ => 7⟩

theorem exCtx_sum (n : Nat) (hn : 0 < n) : (exCtx.randomVector n).sum ≠ 0 := by
  have : 0 < (exCtx.randomVector n).sum := by
    refine List.sum_pos _ (fun a ha => ?_) (by simp [Ctx.randomVector]; omega)
    simp only [Ctx.randomVector, exCtx, List.mem_map] at ha
    obtain ⟨i, -, rfl⟩ := ha
    split <;> norm_num
  exact this.ne'

example : ∃ st, run 0.05 (newDims exEnv (0, 0) 2 2)
    [(.compute [[0, 1], [2, 3], [0, 1]] [[1, 2], [5, 0], [2, 2]], exCtx), (.add [4, 4] [1, 7], exCtx)] = some st := by
  have hd : DataSet [[0, 1], [2, 3], [0, 1]] [[1, 2], [5, 0], [2, 2]] 2 2 := ⟨by simp, by simp, by simp, by simp, by norm_num, by norm_num⟩
  have hd2 : DataSet ([[0, 1], [2, 3], [0, 1]] ++ [[4, 4]]) ([[1, 2], [5, 0], [2, 2]] ++ [[1, 7]]) 2 2 :=
    ⟨by simp, by simp, by simp, by simp, by norm_num, by norm_num⟩
  obtain ⟨s1, h1⟩ := (C61_calls_succeed (rho := 0.05) exEnv_lawful (newDims exEnv (0, 0) 2 2) _ (Or.inr ⟨_, _, _, rfl⟩) (ops := []) (by simp) rfl
    exCtx exCtx_sum).1 _ _ hd
  have hrun : run 0.05 (newDims exEnv (0, 0) 2 2) [(.compute [[0, 1], [2, 3], [0, 1]] [[1, 2], [5, 0], [2, 2]], exCtx)] = some s1 := by
    simp only [run]; rw [h1]; rfl
  obtain ⟨s2, h2⟩ := (C61_calls_succeed (rho := 0.05) exEnv_lawful (newDims exEnv (0, 0) 2 2) s1 (Or.inr ⟨_, _, _, rfl⟩)
    (by intro o ho; rw [List.mem_singleton] at ho; subst ho; exact ⟨trivial, exCtx_sum⟩) hrun exCtx exCtx_sum).2 _ _ hd2
  exact ⟨s2, by simp only [run]; rw [h1, Option.bind_some, h2]; rfl⟩

example : AugTchebycheff 0.05 [1 / 4, 3 / 4] [5, 1] 1.35 ∧ AugTchebycheff 0.05 [1 / 4, 3 / 4] [5, 2] 1.6375 ∧
    List.Forall₂ (fun a b : ℝ => a ≤ b) [5, 1] [5, 2] := by
  refine ⟨⟨rfl, 1.25, ⟨⟨0, by simp, by norm_num⟩, ?_⟩, ?_⟩, ⟨rfl, 1.5, ⟨⟨1, by simp, by norm_num⟩, ?_⟩, ?_⟩, by simp⟩
  · rintro p ⟨i, hi, rfl⟩
    have : i = 0 ∨ i = 1 := by simp at hi; omega
    rcases this with rfl | rfl <;> norm_num
  · norm_num [List.range_succ]
  · rintro p ⟨i, hi, rfl⟩
    have : i = 0 ∨ i = 1 := by simp at hi; omega
    rcases this with rfl | rfl <;> norm_num
  · norm_num [List.range_succ]

/-- an archive can be loaded into a new ParEGO model -/
example : ∃ (a : Gp.Saved) (st : St exEnv), step 0.05 (new exEnv (0, 0) 2) (.inherited (.load a true)) exCtx = some st := by
  obtain ⟨s, hs⟩ := exReach
  obtain ⟨t, ht, -⟩ := C40_save_load exEnv_lawful (.seArd 0 (by norm_num)) .data (fun _ => by show (0:ℝ) < 0.01; norm_num) hs
    ⟨by simp, rfl, rfl, rfl⟩ exData (Gp.new exEnv (0, 0)) true exCtx.junk
  exact ⟨_, ⟨t, 2, []⟩, by simp only [step, Gp.step, new]; rw [ht]; rfl⟩

end Limbo
