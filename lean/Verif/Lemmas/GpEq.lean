import Verif.Lemmas.GpObs

set_option linter.unusedSectionVars false

namespace Limbo

open Finset

namespace Gp

variable {E : GpEnv}

theorem run_append (st : GpState E) (a b : List (Op × (Nat → Nat → ℝ))) : run st (a ++ b) = (run st a).bind fun s => run s b := by
  induction a generalizing st with
  | nil => rfl
  | cons o a ih =>
    obtain ⟨op, j⟩ := o
    simp only [List.cons_append, run]
    cases step st op j with
    | none => rfl
    | some s => simp only [Option.bind_some]; exact ih s

end Gp

open Gp

variable {E : GpEnv} {A B : GpAbs} {s t : GpState E}

theorem GpReach.tracks (hE : LawfulEnv E) (h : GpReach E A s) : Tracks E A s := by
  obtain ⟨u, ops, st0, h0, hs, hr, rfl⟩ := h
  rcases h0 with rfl | ⟨din, dout, rfl⟩
  · exact track_run hE ops (track_new u) hs hr
  · exact track_run hE ops (track_newDims u din dout) hs hr

theorem GpReach.step {op : Op} {junk : Nat → Nat → ℝ} (h : GpReach E A s) (hs : op.Sane) (h1 : Gp.step s op junk = some t) :
    GpReach E (A.step op) t := by
  obtain ⟨u, ops, st0, h0, hss, hr, rfl⟩ := h
  refine ⟨u, ops ++ [(op, junk)], st0, h0, ?_, ?_, ?_⟩
  · intro o ho
    rcases List.mem_append.1 ho with h | h
    · exact hss o h
    · rw [List.mem_singleton.1 h]; exact hs
  · rw [run_append, hr, Option.bind_some]
    simp only [run, h1, Option.bind_some]
  · simp [GpAbs.run]

theorem GpReach.new (u : ℝ × ℝ) : GpReach E .init (Gp.new E u) := ⟨u, [], _, Or.inl rfl, by simp, rfl, rfl⟩

theorem GpReach.newDims (u : ℝ × ℝ) (din dout : Nat) : GpReach E .init (Gp.newDims E u din dout) :=
  ⟨u, [], _, Or.inr ⟨din, dout, rfl⟩, by simp, rfl, rfl⟩

theorem DataSet.ys_ne {xs ys : List (List ℝ)} {din dout : Nat} (h : DataSet xs ys din dout) : ys ≠ [] := by
  intro e
  have := h.same
  rw [e] at this
  exact h.nonempty (List.length_eq_zero_iff.1 this.symm)

theorem DataSet.dims {xs ys : List (List ℝ)} {din dout din' dout' : Nat} (h : DataSet xs ys din dout) (h' : DataSet xs ys din' dout') :
    din = din' ∧ dout = dout' := by
  obtain ⟨x, hx⟩ := List.exists_mem_of_ne_nil _ h.nonempty
  obtain ⟨y, hy⟩ := List.exists_mem_of_ne_nil _ h.ys_ne
  exact ⟨by rw [← h.inputs x hx, ← h'.inputs x hx], by rw [← h.outputs y hy, ← h'.outputs y hy]⟩

theorem Gp.Tracks.hasData (T : Tracks E A s) {din dout : Nat} (hd : DataSet A.xs A.ys din dout) : HasData s A.xs A.ys din dout := by
  obtain ⟨din', dout', hh⟩ := T.ne hd.nonempty
  obtain ⟨rfl, rfl⟩ := hd.dims hh.data
  exact hh

theorem observations_eq {xs ys : List (List ℝ)} {din dout : Nat} (hh : HasData s xs ys din dout) : observationsOf s = ys := by
  unfold observationsOf
  rw [hh.obsRows, hh.obsCols]
  apply List.ext_getElem
  · simp [hh.data.same]
  · intro i h1 h2
    simp only [List.length_map, List.length_range] at h1
    simp only [List.getElem_map, List.getElem_range]
    apply List.ext_getElem
    · simp [hh.data.outputs _ (List.getElem_mem h2)]
    · intro c h3 h4
      simp only [List.length_map, List.length_range] at h3
      simp only [List.getElem_map, List.getElem_range]
      rw [hh.obsE i h1 c h3, List.getD_eq_getElem _ _ h2]
      unfold at'
      rw [List.getD_eq_getElem _ _ h4]

/-- Two GPs with the same data and functors, both up to date, agree. -/
theorem sameFit_of_tracks (hE : LawfulEnv E) (T1 : Tracks E A s) (T2 : Tracks E B t) (hx : A.xs = B.xs) (hy : A.ys = B.ys)
    (hA : A.UpToDate) (hB : B.UpToDate) {din dout : Nat} (hd : DataSet A.xs A.ys din dout) (hk : s.kf = t.kf)
    (hm : ∀ v mo, ∀ c < dout, E.M.op s.mf v mo c = E.M.op t.mf v mo c) : SameFit s t A.xs.length dout := by
  obtain ⟨hne, hAk, hAm, hAa⟩ := hA
  obtain ⟨hne', hBk, hBm, hBa⟩ := hB
  have hd' : DataSet B.xs B.ys din dout := by rw [← hx, ← hy]; exact hd
  have h1 := T1.hasData hd
  have h2 := T2.hasData hd'
  have m1 := T1.mok hne hAm
  have m2 := T2.mok hne' hBm
  have a1 := T1.aok hne hAa
  have a2 := T2.aok hne' hBa
  rw [h1.dimOut, Int.toNat_natCast] at m1 a1
  rw [h2.dimOut, Int.toNat_natCast, ← hx] at m2 a2
  have k1 := T1.kok hAk
  have k2 := T2.kok hBk
  rw [← hx] at k2
  have hsamp : s.samples = t.samples := by rw [T1.samples, T2.samples, hx]
  have hg : gramN s.kf s.samples = gramN t.kf t.samples := by rw [hk, hsamp]
  have hpd : PD A.xs.length (gramN s.kf s.samples) := k1.chol.pd
  have hL := k1.chol.unique k2.chol (fun i _ j _ => by rw [hg])
  have hmean : ∀ v, ∀ c < dout, meanAt s v c = meanAt t v c := by
    intro v c hc
    rw [meanAt_eq h1, meanAt_eq h2]
    unfold meanFn
    rw [hy]
    exact hm v _ c hc
  have hobs : ∀ i < A.xs.length, ∀ c < dout, s.obs.e i c = t.obs.e i c := by
    intro i hi c hc
    rw [h1.obsE i hi c hc, h2.obsE i (by rw [← hx]; exact hi) c hc, hy]
  have hal : ∀ i < A.xs.length, ∀ c < dout, s.alpha.e i c = t.alpha.e i c := by
    intro i hi c hc
    have e1 := a1.sol c hc
    have e2 := a2.sol c hc
    rw [← hg] at e2
    refine Solves.unique hpd (y := fun i => t.alpha.e i c) e1 (fun j hj => ?_) i hi
    rw [e2 j hj]
    simp only
    rw [hobs j hj c hc, hsamp, hmean _ c hc]
  have hmv : ∀ i < A.xs.length, ∀ c < dout, s.meanVector.e i c = t.meanVector.e i c := by
    intro i hi c hc
    rw [m1.me i hi c hc, m2.me i hi c hc, hsamp, hmean _ c hc]
  have hl1 : s.samples.length = A.xs.length := by rw [T1.samples]
  have hl2 : t.samples.length = A.xs.length := by rw [← hsamp, hl1]
  have hpos : A.xs.length ≠ 0 := fun e => hne (List.length_eq_zero_iff.1 e)
  refine ⟨hsamp, by rw [observations_eq h1, observations_eq h2, hy], ⟨k1.rows, k2.rows, a1.rows, a2.rows, m1.mrows, m2.mrows⟩,
    ⟨k1.cols, k2.cols, a1.cols, a2.cols, m1.mcols, m2.mcols⟩, hL, hal, hmv, ?_, ?_, ?_⟩
  · intro v
    refine ⟨_, _, (mu_spec hE T1 hne hAa hd v).1, (mu_spec hE T2 hne' hBa hd' v).1, ?_⟩
    intro c hc
    unfold muK
    rw [hl1, hl2, hmean v c hc]
    congr 1
    apply sum_congr rfl
    intro i hi
    rw [hal i (mem_range.1 hi) c hc]
    unfold computeK
    rw [hk, hsamp]
  · intro v
    refine ⟨_, (sigma_spec hE T1 hne hAk v).1, ?_⟩
    rw [(sigma_spec hE T2 hne' hBk v).1, (sigma_spec hE T1 hne hAk v).2, (sigma_spec hE T2 hne' hBk v).2, hk, hx]
  · unfold computeLogLik
    simp only
    rw [if_pos ⟨by rw [m1.rows, a1.rows], by rw [m1.cols, a1.cols]⟩, if_pos ⟨by rw [m2.rows, a2.rows], by rw [m2.cols, a2.cols]⟩]
    refine ⟨_, rfl, ?_⟩
    simp only [Option.map_some, Option.some.injEq, k1.rows, k2.rows, m1.rows, m2.rows, m1.cols, m2.cols]
    have e1 : ∑ c ∈ range dout, ∑ i ∈ range A.xs.length, t.obsMean.e i c * t.alpha.e i c
        = ∑ c ∈ range dout, ∑ i ∈ range A.xs.length, s.obsMean.e i c * s.alpha.e i c := by
      apply sum_congr rfl
      intro c hc
      apply sum_congr rfl
      intro i hi
      rw [mem_range] at hc hi
      rw [hal i hi c hc, m1.e i hi c hc, m2.e i hi c hc, hobs i hi c hc, hsamp, hmean _ c hc]
    have e2 : ∑ i ∈ range A.xs.length, Real.log (t.L.e i i) = ∑ i ∈ range A.xs.length, Real.log (s.L.e i i) := by
      apply sum_congr rfl
      intro i hi
      rw [mem_range] at hi
      rw [hL i hi i hi]
    rw [e1, e2]

end Limbo
