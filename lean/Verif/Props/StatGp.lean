import Verif.Model.StatGp
import Verif.Spec.StatGp
import Verif.Lemmas.BoStat
import Verif.Props.BoGp
import Verif.Props.Init
import Verif.Lemmas.Imgpo4

/-! # C92: the GP statistics -/

namespace Limbo

open Gp

variable {E : GpEnv} {u : Nat → Nat → ℝ × ℝ} {junkC : List (List ℝ) → List (List ℝ) → GpState E → Nat → Nat → ℝ}
  {junkA : List ℝ → List ℝ → GpState E → Nat → Nat → ℝ} {hp : HpFunctor E} {P : BoParams XR (GpState E)}

theorem gpOps_noThrow : NoThrow (gpOps E u junkC junkA hp) := by
  refine ⟨?_, ?_, ?_⟩
  · intro s v m e m' h
    simp only [gpOps, boGpCompute, gpRes] at h
    split at h <;> cases h
  · intro s v m e m' h
    simp only [gpOps, boGpAdd, gpRes] at h
    split at h <;> cases h
  · intro m e m' h
    simp only [gpOps, gpRes] at h
    split at h <;> cases h

theorem GpRel.dims (hE : LawfulEnv E) {g : GpState E} {d : List (List XR × List XR)} (h : GpRel g d) :
    ∀ o ∈ d, g.dimIn = o.1.length ∧ g.dimOut = o.2.length := by
  obtain ⟨xs, ys, hl, rfl, hr⟩ := h
  intro o ho
  have hT := hr.tracks hE
  have hne : xs ≠ [] := by rintro rfl; simp [finPairs] at ho
  obtain ⟨din, dout, hh⟩ := hT.ne hne
  simp only [finPairs, List.mem_map] at ho
  obtain ⟨⟨a, b⟩, hab, rfl⟩ := ho
  obtain ⟨ha, hb⟩ := List.of_mem_zip hab
  rw [hh.dimIn, hh.dimOut]
  simp only [List.length_map]
  exact ⟨by rw [hh.data.inputs a ha], by rw [hh.data.outputs b hb]⟩

theorem statPoints_prefix {α M : Type} [Scalar α] (tr : List (Event α M)) : ∀ p ∈ statPoints tr, ∃ post, tr = p.1 ++ .stat p.2 :: post := by
  have : ∀ (tr : List (Event α M)) (pre), ∀ p ∈ statPointsFrom pre tr, ∃ post, pre ++ tr = p.1 ++ .stat p.2 :: post := by
    intro tr
    induction tr with
    | nil => intro pre p hp; simp [statPointsFrom] at hp
    | cons e es ih =>
      intro pre p hp
      unfold statPointsFrom at hp
      rw [List.mem_append] at hp
      rcases hp with hp | hp
      · split at hp
        · rw [List.mem_singleton] at hp
          subst hp; exact ⟨es, rfl⟩
        · cases hp
      · obtain ⟨post, h⟩ := ih _ p hp
        exact ⟨post, by rw [← h]; simp⟩
  intro p hp
  simpa using this tr [] p hp

/-- every block of the log of statistic `s` was written in a state of the kind described -/
theorem stat_blocks (hE : LawfulEnv E) (hP : P.ops = gpOps E u junkC junkA hp) (hen : P.statsEnabled = true) {k : Nat} {s : Stat XR (GpState E)}
    (hs : P.stats[k]? = some s) (c : Int) (u0 : ℝ × ℝ) (ops : List (BoOp XR (GpState E))) (afun : List XR → XR)
    (hops : ∀ f a r n, BoOp.optimize f a r n ∈ ops → a = afun) (st : BoState XR (GpState E))
    (h : runOps P ops (newBo P c (Gp.new E u0)) = some st) :
    ∃ blks : List (List (LogLine XR)), st.logs[k]? = some blks.flatten ∧
      List.Forall₂ (fun p blk => ∃ (q : BoState XR (GpState E)) (others : List (List XR × List XR)) (x y : List XR),
        StatAfter p.1 p.2 q.currentIteration others x y ∧ q.model = p.2 ∧ q.totalIterations = (statsSince p.1 : Int) ∧
        q.samples.getLast? = some x ∧ q.observations.getLast? = some y ∧ q.samples.zip q.observations = others ++ [(x, y)] ∧
        q.samples.length = q.observations.length ∧ s q afun = some blk) (statPoints st.trace) blks := by
  have hL : LawfulRel P.ops (GpRel (E := E)) := by rw [hP]; exact gpOps_lawful u junkC junkA hp
  have hT := (runOps_inv (I := RelT GpRel) (fun op st h => runOp_rel hL op st h) ops _ st (newBo_relT c u0) h).tr
  have hI := runOps_stat hen hs (by rw [hP]; exact gpOps_noThrow) ops hops _ st (newBo_stat (afun := afun) c (Gp.new E u0) hs) h
  obtain ⟨blks, h1, h2⟩ := hI.log
  refine ⟨blks, h1, ?_⟩
  clear h1
  have hmem : ∀ p ∈ statPoints st.trace, ∃ post, st.trace = p.1 ++ .stat p.2 :: post := statPoints_prefix _
  generalize statPoints st.trace = ps at h2 hmem
  induction h2 with
  | nil => exact .nil
  | @cons p blk ps blks hq _ ih =>
    refine .cons ?_ (ih fun p hp => hmem p (by simp [hp]))
    obtain ⟨q, ⟨hinv, htr, hmod, ⟨tr0, x, y, hpre, hfin, hx, hy⟩, htot⟩, hblk⟩ := hq
    obtain ⟨post, hpost⟩ := hmem p (by simp)
    have hR : GpRel p.2 (expect tr0) := hT tr0 (.acqui p.2 q.currentIteration) ⟨.call x (.ret y) :: .stat p.2 :: post, by rw [hpost, hpre]; simp⟩
    have hexp : expect p.1 = expect tr0 ++ [(x, y)] := by
      rw [hpre, show tr0 ++ [Event.acqui p.2 q.currentIteration, .call x (.ret y)] = (tr0 ++ [.acqui p.2 q.currentIteration]) ++ [.call x (.ret y)] by simp,
        expect_append, expect_append]
      simp [expectStep, (all_finite_iff y).2 hfin, hfin]
    refine ⟨q, expect tr0, x, y, ⟨⟨tr0, hpre, rfl⟩, hexp, allFinite_allFin hfin, hR.fits hE, hR.dims hE⟩, hmod, htot, hx, hy, ?_, hinv.len, hblk⟩
    rw [hinv.zip, htr, expect_append]
    simpa [expectStep] using hexp

theorem Forall₂.mono' {α β : Type*} {R S : α → β → Prop} {l : List α} {m : List β} (h : List.Forall₂ R l m) (hRS : ∀ a b, R a b → S a b) :
    List.Forall₂ S l m := by
  induction h with
  | nil => exact .nil
  | cons h _ ih => exact .cons (hRS _ _ h) ih

theorem fits_query {g : GpState E} {d : List (List XR × List XR)} (h : GpFits g d) (v : List ℝ) : ∃ m var, query g v = some (m, var) := by
  obtain ⟨xs, ys, -, -, -, -, h0, h1⟩ := h
  by_cases hx : xs = []
  · exact ⟨_, _, h0 hx v⟩
  · obtain ⟨_, _, -, -, -, hq⟩ := h1 hx
    obtain ⟨m, hm, -⟩ := hq v
    exact ⟨m, _, hm⟩

theorem query_mu {g : GpState E} {v : List ℝ} {m : Nat → ℝ} {var : ℝ} (h : query g v = some (m, var)) : mu g v = some m := by
  rw [C28_query_is_mu_sigma] at h
  cases hm : mu g v with
  | none => rw [hm] at h; cases h
  | some m' =>
    rw [hm, Option.bind_some, Option.map_eq_some_iff] at h
    obtain ⟨_, -, he⟩ := h
    rw [(Prod.mk.inj he).1]

theorem reals?_eq_some {x : List XR} {v : List ℝ} (h : reals? x = some v) : x = v.map XR.fin := reals?_eq h

/-- **C92**, `stat::GPPredictionDifferences`: after any history of calls (all runs with the same aggregator), the file has, in this order,
one row for each completed evaluation of the optimization loop, with its number since the last reset: the value the GP predicted at the
new point *from all the other data*, the value observed there, and the absolute difference.  A header precedes each row number 0. -/
theorem C92_prediction_differences (hE : LawfulEnv E) (hP : P.ops = gpOps E u junkC junkA hp) (hen : P.statsEnabled = true) (k : Nat)
    (hs : P.stats[k]? = some statGpPredictionDifferences) (c : Int) (u0 : ℝ × ℝ) (ops : List (BoOp XR (GpState E))) (afun : List XR → XR)
    (hops : ∀ f a r n, BoOp.optimize f a r n ∈ ops → a = afun) (st : BoState XR (GpState E))
    (h : runOps P ops (newBo P c (Gp.new E u0)) = some st) :
    ∃ blks : List (List (LogLine XR)), st.logs[k]? = some blks.flatten ∧
      List.Forall₂ (fun p blk => ∃ it others v y m var diff, StatAfter p.1 p.2 it others (v.map XR.fin) y ∧ query p.2 v = some (m, var) ∧
        blk = headerIf (statsSince p.1) ++ [.row (statsSince p.1) [afun (vecOf p.2.dimOut.toNat m), afun y, diff]] ∧
        ∀ a b : ℝ, afun (vecOf p.2.dimOut.toNat m) = XR.fin a → afun y = XR.fin b → diff = XR.fin |a - b|)
        (statPoints st.trace) blks := by
  obtain ⟨blks, h1, h2⟩ := stat_blocks hE hP hen hs c u0 ops afun hops st h
  refine ⟨blks, h1, Forall₂.mono' h2 ?_⟩
  rintro ⟨pre, g⟩ blk ⟨q, others, x, y, hsa, rfl, htot, hx, hy, -, -, hblk⟩
  have hne : q.observations.isEmpty = false := by
    cases ho : q.observations with
    | nil => rw [ho] at hy; cases hy
    | cons a l => rfl
  simp only [statGpPredictionDifferences, hne, Bool.false_eq_true, if_false, hx, hy] at hblk
  rw [Option.bind_eq_some_iff] at hblk
  obtain ⟨v, hv, hblk⟩ := hblk
  obtain rfl := reals?_eq_some hv
  obtain ⟨m, var, hq⟩ := fits_query hsa.fits v
  rw [query_mu hq, Option.map_some, Option.some.injEq, htot] at hblk
  refine ⟨_, others, v, y, m, var, Cma.absS (afun (vecOf q.model.dimOut.toNat m) - afun y), hsa, hq, ?_, ?_⟩
  · rw [← hblk]
    simp only [headRow, headerIf, Int.natCast_eq_zero]
    rfl
  · intro a b ha hb
    change Cma.absS (afun (vecOf q.model.dimOut.toNat m) - afun y) = _
    rw [ha, hb, XR.sub_fin]
    unfold Cma.absS
    by_cases hab : a - b < 0
    · rw [if_pos (by simpa [XR.lit_eq] using hab), abs_of_neg hab]; rfl
    · rw [if_neg (by simpa [XR.lit_eq] using hab), abs_of_nonneg (not_lt.1 hab)]

/-- **C92**, `stat::GPAcquisitions`: one row for each completed evaluation of the loop: the aggregated predicted mean and the variance at
the new point, and the value there of the very acquisition function (same model, same iteration) with which the point was chosen. -/
theorem C92_acquisitions (hE : LawfulEnv E) (hP : P.ops = gpOps E u junkC junkA hp) (hen : P.statsEnabled = true) (k : Nat)
    (hs : P.stats[k]? = some (statGpAcquisitions P.acqui)) (c : Int) (u0 : ℝ × ℝ) (ops : List (BoOp XR (GpState E))) (afun : List XR → XR)
    (hops : ∀ f a r n, BoOp.optimize f a r n ∈ ops → a = afun) (st : BoState XR (GpState E))
    (h : runOps P ops (newBo P c (Gp.new E u0)) = some st) :
    ∃ blks : List (List (LogLine XR)), st.logs[k]? = some blks.flatten ∧
      List.Forall₂ (fun p blk => ∃ it others v y m var, StatAfter p.1 p.2 it others (v.map XR.fin) y ∧ query p.2 v = some (m, var) ∧
        blk = headerIf (statsSince p.1) ++ [.row (statsSince p.1) [afun (vecOf p.2.dimOut.toNat m), XR.fin var,
          (P.acqui p.2 it afun (v.map XR.fin) false).1]])
        (statPoints st.trace) blks := by
  obtain ⟨blks, h1, h2⟩ := stat_blocks hE hP hen hs c u0 ops afun hops st h
  refine ⟨blks, h1, Forall₂.mono' h2 ?_⟩
  rintro ⟨pre, g⟩ blk ⟨q, others, x, y, hsa, rfl, htot, hx, hy, -, -, hblk⟩
  simp only [statGpAcquisitions, hx] at hblk
  rw [Option.bind_eq_some_iff] at hblk
  obtain ⟨v, hv, hblk⟩ := hblk
  obtain rfl := reals?_eq_some hv
  obtain ⟨m, var, hq⟩ := fits_query hsa.fits v
  rw [hq, Option.map_some, Option.some.injEq, htot] at hblk
  refine ⟨_, others, v, y, m, var, hsa, hq, ?_⟩
  rw [← hblk]
  simp only [headRow, headerIf, Int.natCast_eq_zero]
  rfl

/-- **C92**, `stat::GPKernelHParams` and `stat::GPMeanHParams`: one row for each completed evaluation of the loop: the kernel (mean)
parameters with which the point was chosen. -/
theorem C92_hparams (hE : LawfulEnv E) (hP : P.ops = gpOps E u junkC junkA hp) (hen : P.statsEnabled = true) (k k' : Nat)
    (hs : P.stats[k]? = some statGpKernelHParams) (hs' : P.stats[k']? = some statGpMeanHParams) (c : Int) (u0 : ℝ × ℝ)
    (ops : List (BoOp XR (GpState E))) (afun : List XR → XR)
    (hops : ∀ f a r n, BoOp.optimize f a r n ∈ ops → a = afun) (st : BoState XR (GpState E))
    (h : runOps P ops (newBo P c (Gp.new E u0)) = some st) :
    st.logs[k]? = some ((statPoints st.trace).flatMap fun p =>
      headerIf (statsSince p.1) ++ [.row (statsSince p.1) ((p.2.kf.hParams E.KP).map XR.fin)]) ∧
    st.logs[k']? = some ((statPoints st.trace).flatMap fun p =>
      headerIf (statsSince p.1) ++ [.row (statsSince p.1) ((E.M.hParams p.2.mf).map XR.fin)]) ∧
    ∀ p ∈ statPoints st.trace, ∃ it others x y, StatAfter p.1 p.2 it others x y := by
  have key : ∀ {k : Nat} {s : Stat XR (GpState E)} (F : GpState E → List ℝ), (s = fun st _ => if st.observations.isEmpty then some []
      else some (headRow st.totalIterations ((F st.model).map XR.fin))) → P.stats[k]? = some s →
      st.logs[k]? = some ((statPoints st.trace).flatMap fun p => headerIf (statsSince p.1) ++ [.row (statsSince p.1) ((F p.2).map XR.fin)]) ∧
      ∀ p ∈ statPoints st.trace, ∃ it others x y, StatAfter p.1 p.2 it others x y := by
    rintro k s F rfl hs
    obtain ⟨blks, h1, h2⟩ := stat_blocks hE hP hen hs c u0 ops afun hops st h
    have : blks = (statPoints st.trace).map (fun p => headerIf (statsSince p.1) ++ [.row (statsSince p.1) ((F p.2).map XR.fin)]) ∧
        ∀ p ∈ statPoints st.trace, ∃ it others x y, StatAfter p.1 p.2 it others x y := by
      clear h1
      generalize statPoints st.trace = ps at h2
      induction h2 with
      | nil => simp
      | @cons p blk ps blks hq _ ih =>
        obtain ⟨q, others, x, y, hsa, hmod, htot, hx, hy, -, -, hblk⟩ := hq
        have hne : q.observations.isEmpty = false := by
          cases ho : q.observations with
          | nil => rw [ho] at hy; cases hy
          | cons a l => rfl
        simp only [hne, Bool.false_eq_true, if_false, Option.some.injEq, htot, hmod] at hblk
        refine ⟨?_, ?_⟩
        · rw [ih.1, List.map_cons, ← hblk]
          simp only [headRow, headerIf, Int.natCast_eq_zero]
        · intro p' hp'
          rcases List.mem_cons.1 hp' with rfl | hp'
          · exact ⟨_, _, _, _, hsa⟩
          · exact ih.2 p' hp'
    rw [h1, this.1, List.flatMap_def]
    exact ⟨rfl, this.2⟩
  obtain ⟨a, b⟩ := key (fun g => g.kf.hParams E.KP) rfl hs
  obtain ⟨a', -⟩ := key (fun g => E.M.hParams g.mf) rfl hs'
  exact ⟨a, a', b⟩

theorem gpLines_eq {acqui : GpState E → Int → (List XR → XR) → ObjFn XR} {q : BoState XR (GpState E)} {afun : List XR → XR} {m : List ℝ → Nat → ℝ} {var : List ℝ → ℝ}
    (hq : ∀ v, query q.model v = some (m v, var v)) : ∀ vs : List (List ℝ), gpLines acqui q afun (vs.map (List.map XR.fin)) =
      some (vs.map fun v => .row q.totalIterations (v.map XR.fin ++ vecOf q.model.dimOut.toNat (m v) ++ [XR.fin (var v),
        (acqui q.model q.currentIteration afun (v.map XR.fin) false).1])) := by
  intro vs
  induction vs with
  | nil => rfl
  | cons v vs ih =>
    simp only [List.map_cons, gpLines, gpLine, reals?_map, Option.bind_some, hq, Option.map_some, ih]
    rfl

/-- **C92**, `stat::GP` with `b` bins: for each completed evaluation of the loop one file, with a header and one line for each point of
the regular grid with `b + 1` values per axis — every grid point exactly once, in lexicographic order: the point, the predicted mean, the
variance, and the value of the acquisition function with which the newest point was chosen (predictions do not use the newest point). -/
theorem C92_gp_map (hE : LawfulEnv E) (hP : P.ops = gpOps E u junkC junkA hp) (hen : P.statsEnabled = true) (k b fuel : Nat) (hb : 0 < b)
    (hfuel : b + 2 ≤ fuel) (hs : P.stats[k]? = some (statGp P.acqui b fuel)) (c : Int) (u0 : ℝ × ℝ) (ops : List (BoOp XR (GpState E)))
    (afun : List XR → XR) (hops : ∀ f a r n, BoOp.optimize f a r n ∈ ops → a = afun) (st : BoState XR (GpState E))
    (h : runOps P ops (newBo P c (Gp.new E u0)) = some st) :
    ∃ files : List (List (LogLine XR)), st.logs[k]? = some files.flatten ∧
      List.Forall₂ (fun p file => ∃ (it : Int) (others : List (List XR × List XR)) (x y : List XR) (m : List ℝ → Nat → ℝ) (var : List ℝ → ℝ)
          (ks : List (List ℕ)),
        StatAfter p.1 p.2 it others x y ∧ (∀ v, query p.2 v = some (m v, var v)) ∧
        (∀ k, k ∈ ks ↔ (k.length : Int) = p.2.dimIn ∧ ∀ i ∈ k, i ≤ b) ∧ ks.Nodup ∧ ks.Pairwise (List.Lex (· < ·)) ∧
        file = .header :: (ks.map fun k => k.map fun i : ℕ => (i : ℝ) / b).map fun v =>
          .row (statsSince p.1) (v.map XR.fin ++ vecOf p.2.dimOut.toNat (m v) ++ [XR.fin (var v), (P.acqui p.2 it afun (v.map XR.fin) false).1]))
        (statPoints st.trace) files := by
  obtain ⟨blks, h1, h2⟩ := stat_blocks hE hP hen hs c u0 ops afun hops st h
  refine ⟨blks, h1, Forall₂.mono' h2 ?_⟩
  rintro ⟨pre, g⟩ blk ⟨q, others, x, y, hsa, rfl, htot, hx, hy, -, -, hblk⟩
  simp only [statGp] at hblk
  split at hblk
  · cases hblk
  next hdim =>
  choose m var hq using fits_query hsa.fits
  obtain ⟨d, hd⟩ : ∃ d : ℕ, q.model.dimIn = d := ⟨q.model.dimIn.toNat, by omega⟩
  rw [hd, Int.toNat_natCast] at hblk
  rcases Nat.eq_zero_or_pos d with rfl | hdp
  · exfalso
    rw [Option.bind_eq_some_iff] at hblk
    obtain ⟨pts, hp, -⟩ := hblk
    simp only [gridSampling] at hp
    split at hp
    · cases hp
    · simp [explore] at hp
  obtain ⟨ks, hk1, hk2, -, hk3, hk4⟩ := C12_grid_sampling_exact b fuel d hb hfuel hdp
  have hks : (ks.map fun k => k.map fun i : ℕ => XR.fin ((i : ℝ) / b)) = (ks.map fun k => k.map fun i : ℕ => (i : ℝ) / b).map (List.map XR.fin) := by
    simp [List.map_map, Function.comp_def]
  rw [hk1, Option.bind_some, hks, gpLines_eq hq, Option.map_some, Option.some.injEq, htot] at hblk
  refine ⟨_, others, x, y, m, var, ks, hsa, hq, ?_, hk4, hk3, hblk.symm⟩
  intro k
  rw [hk2 k]
  show _ ↔ (k.length : Int) = q.model.dimIn ∧ _
  rw [hd, Int.natCast_inj]

/-- **C92**, `stat::ConsoleSummary`: one line for each completed evaluation of the loop: the new point, its value, and the best value so far. -/
theorem C92_console (hE : LawfulEnv E) (hP : P.ops = gpOps E u junkC junkA hp) (hen : P.statsEnabled = true) (k : Nat)
    (hs : P.stats[k]? = some statConsole) (c : Int) (u0 : ℝ × ℝ) (ops : List (BoOp XR (GpState E))) (afun : List XR → XR)
    (hnan : ∀ y, AllFin y → isNaN (afun y) = false)
    (hops : ∀ f a r n, BoOp.optimize f a r n ∈ ops → a = afun) (st : BoState XR (GpState E))
    (h : runOps P ops (newBo P c (Gp.new E u0)) = some st) :
    ∃ blks : List (List (LogLine XR)), st.logs[k]? = some blks.flatten ∧
      List.Forall₂ (fun p blk => ∃ it others x y best, StatAfter p.1 p.2 it others x y ∧ best ∈ (expect p.1).map (fun o => afun o.2) ∧
        (∀ o ∈ expect p.1, le (afun o.2) best = true) ∧ blk = [.row (statsSince p.1) (x ++ [afun y, best])])
        (statPoints st.trace) blks := by
  obtain ⟨blks, h1, h2⟩ := stat_blocks hE hP hen hs c u0 ops afun hops st h
  refine ⟨blks, h1, Forall₂.mono' h2 ?_⟩
  rintro ⟨pre, g⟩ blk ⟨q, others, x, y, hsa, rfl, htot, hx, hy, hz, hlen, hblk⟩
  have hne : q.observations ≠ [] := by
    intro ho; rw [ho] at hy; cases hy
  have hfinq : ∀ v ∈ q.observations, AllFin v := by
    intro v hv
    have hmap : q.observations = (others ++ [(x, y)]).map Prod.snd := by
      rw [← hz, List.map_snd_zip (by omega)]
    rw [hmap, List.map_append, List.mem_append] at hv
    rcases hv with hv | hv
    · obtain ⟨xs, ys, -, ho, -⟩ := hsa.fits
      rw [ho] at hv
      simp only [finPairs, List.map_map, List.mem_map] at hv
      obtain ⟨p, -, rfl⟩ := hv
      intro z hz
      simp only [Function.comp_apply, List.mem_map] at hz
      obtain ⟨a, -, rfl⟩ := hz
      exact ⟨a, rfl⟩
    · simp only [List.map_cons, List.map_nil, List.mem_singleton] at hv
      rw [hv]; exact hsa.fin
  obtain ⟨b, hb1, hb2, hb3⟩ := maxElement_spec (q.observations.map afun) (by simpa using hne)
    (by intro z hz; obtain ⟨v, hv, rfl⟩ := List.mem_map.1 hz; exact hnan v (hfinq v hv))
  rw [List.getElem?_map, Option.map_eq_some_iff] at hb1
  obtain ⟨v, hv, rfl⟩ := hb1
  have hobs : (expect pre).map (fun o => afun o.2) = q.observations.map afun := by
    have : expect pre = q.samples.zip q.observations := by rw [hz]; exact hsa.data
    rw [this]
    have h3 : (q.samples.zip q.observations).map Prod.snd = q.observations := List.map_snd_zip (by omega)
    conv_rhs => rw [← h3]
    rw [List.map_map]; rfl
  have hie : q.observations.isEmpty = false := by simpa using hne
  simp only [statConsole, hie, Bool.false_eq_true, if_false, hx, hy, bestObservation, hv, Option.some.injEq, htot] at hblk
  refine ⟨_, others, x, y, afun v, hsa, ?_, ?_, hblk.symm⟩
  · show afun v ∈ (expect pre).map _
    rw [hobs]; exact List.mem_map_of_mem (List.mem_of_getElem? hv)
  · intro o ho
    have : afun o.2 ∈ q.observations.map afun := by rw [← hobs]; exact List.mem_map_of_mem (f := fun o : List XR × List XR => afun o.2) ho
    obtain ⟨j, hj⟩ := List.mem_iff_getElem?.1 this
    exact hb2 j _ hj

/-- **C92**: these statistics (except the map of the GP, which needs a model that knows its dimension) never fail when they are written. -/
theorem C92_statistics_never_fail {din : Nat} {st : BoState XR (GpState E)} (h : StatMoment din st)
    (acqui : GpState E → Int → (List XR → XR) → ObjFn XR) (afun : List XR → XR) : ∀ s ∈ [statGpPredictionDifferences, statGpAcquisitions acqui,
      statGpKernelHParams, statGpMeanHParams, statConsole], s st afun ≠ none := by
  obtain ⟨hlen, others, x, y, hz, ⟨hx, -⟩, -, hf⟩ := h
  have h1 : st.samples = (others ++ [(x, y)]).map Prod.fst := by rw [← hz, List.map_fst_zip (by omega)]
  have h2 : st.observations = (others ++ [(x, y)]).map Prod.snd := by rw [← hz, List.map_snd_zip (by omega)]
  have hx1 : st.samples.getLast? = some x := by rw [h1]; simp
  have hy1 : st.observations.getLast? = some y := by rw [h2]; simp
  have hie : st.observations.isEmpty = false := by rw [h2]; simp
  have hxr : ∃ v : List ℝ, x = v.map XR.fin := hx.exists_map
  obtain ⟨v, rfl⟩ := hxr
  obtain ⟨m, var, hq⟩ := fits_query hf v
  have hb : ∃ b, bestObservation afun st = some b := by
    have hn : st.observations ≠ [] := by simpa using hie
    have : maxElement (st.observations.map afun) < st.observations.length := by
      have := maxElement_lt (l := st.observations.map afun) (by simpa using hn)
      simpa using this
    exact ⟨_, List.getElem?_eq_getElem this⟩
  obtain ⟨b, hb⟩ := hb
  intro s hs
  simp only [List.mem_cons, List.not_mem_nil, or_false] at hs
  rcases hs with rfl | rfl | rfl | rfl | rfl
  · simp [statGpPredictionDifferences, hie, hx1, hy1, reals?_map, query_mu hq]
  · simp [statGpAcquisitions, hx1, reals?_map, hq]
  · simp [statGpKernelHParams, hie]
  · simp [statGpMeanHParams, hie]
  · simp [statConsole, hie, hx1, hy1, hb]

/-! A concrete optimizer with all these statistics: the history of `Props/BoGp.lean` runs. -/

noncomputable def exStatP : BoParams XR (GpState exEnv) :=
  { exGpP with
    acqui := fun g it afun x _ => (((reals? x).bind fun v => Gp.mu g v).elim (XR.fin 0) fun m => afun (outVec g m) + XR.fin it, none)
    stats := [statGpPredictionDifferences, statGpAcquisitions (fun g it afun x _ =>
      (((reals? x).bind fun v => Gp.mu g v).elim (XR.fin 0) fun m => afun (outVec g m) + XR.fin it, none)), statGpKernelHParams, statGpMeanHParams, statConsole] }

theorem exStatP_ok : ComponentsOk exStatP exHp 2 1 :=
  { din_pos := exGpP_ok.din_pos, dout_pos := exGpP_ok.dout_pos, init := exGpP_ok.init, inner := exGpP_ok.inner, stop := exGpP_ok.stop,
    stats := fun s hs st afun h => C92_statistics_never_fail h _ afun s hs, hp := exGpP_ok.hp }

example : ∃ st, runOps exStatP exGpOps (newBo exStatP 0 (Gp.new exEnv (0, 0))) = some st ∧
    (∀ f a r n, BoOp.optimize f a r n ∈ exGpOps → a = fun v => v.headD (XR.fin 0)) ∧ exStatP.statsEnabled = true ∧
    exStatP.stats[1]? = some (statGpAcquisitions exStatP.acqui) ∧ (∀ y, AllFin y → isNaN ((fun v : List XR => v.headD (XR.fin 0)) y) = false) := by
  obtain ⟨st, h⟩ := C91_every_history_runs exEnv_lawful rfl exStatP_ok 3 (List.mem_singleton.2 rfl) 0 (0, 0) exGpOps exGpOps_ok (by
    intro f afun reset fuel hm
    simp only [exGpOps, List.mem_cons, List.not_mem_nil, or_false, reduceCtorEq, false_or, BoOp.optimize.injEq] at hm
    rw [hm.2.2.2]; norm_num)
  refine ⟨st, h, ?_, rfl, rfl, ?_⟩
  · intro f a r n hm
    simp only [exGpOps, List.mem_cons, List.not_mem_nil, or_false, reduceCtorEq, false_or, BoOp.optimize.injEq] at hm
    exact hm.2.1
  · intro y hy
    cases y with
    | nil => rfl
    | cons a l => obtain ⟨r, hr⟩ := hy a (by simp); subst hr; rfl

end Limbo
