import Verif.Lemmas.SpgpVec
import Verif.Lemmas.SpgpTotal
import Verif.Lemmas.SpgpStale
import Verif.Spec.SpgpHist

/-!
Sparse Gaussian process with pseudo-inputs (experimental/model/spgp.hpp).

An object is made by one of its constructors (`s`) and then receives calls (`ops`); all of them return normally (`= .ok st`).  The data it then holds
are given by `held`.  `E.llt` is the Cholesky decomposition, `E.hpOpt` the optimizer of the hyper-parameters (any function).
-/

namespace Limbo.Spgp

open Matrix

variable {E : SpEnv}

theorem pseudoCount_eq (P : SpParams) (n : Nat) : pseudoCount P n = spCount P.samplesPercent P.minM n := by
  unfold pseudoCount spCount
  simp only
  split_ifs with h
  · exact (max_eq_left h.le).symm
  · exact (max_eq_right (Nat.le_of_not_lt h)).symm

theorem ofVec_good {m n d : Nat} (X : Matrix (Fin n) (Fin d) ℝ) {jit : ℝ} (hj : 0 < jit) (w : List ℝ) : (SpModel.ofVec m X jit w).Good := by
  obtain ⟨llt, hl⟩ := llt_contract_satisfiable
  exact LikIn.good (vecIn_ok hl m X (fun _ => 0) hj w)

theorem fitted_predicts {st : SpState E} {xs ys : List (List ℝ)} {d m : Nat} {w : List ℝ} (hl : LltContract E.llt) (hj : 0 < E.P.jitter)
    (hD : DataSet xs ys d 1) (hh : Holds st xs ys d 1)
    (hf : Fitted st (vecIn E.llt m (spInputs xs.length d xs) (spResid E.M xs.length xs ys) E.P.jitter w)) :
    Predicts st (SpModel.ofVec m (spInputs xs.length d xs) E.P.jitter w) (spPriorMean E.M ys) (spResid E.M xs.length xs ys) := by
  intro v hv
  have hs : st.samples.rows ≠ 0 := by
    rw [hh.srows]
    exact fun e => hh.ne (List.length_eq_zero_iff.mp e)
  rw [query_fitted (vecIn_ok hl _ _ _ hj w) hf hs (by rw [hh.dimOut]; rfl) hv, hh.mean_eq hD.din_pos]
  rfl

theorem toVector_matOf {m d : Nat} (A : Matrix (Fin m) (Fin d) ℝ) : toVector (matOf A) = List.ofFn fun i => List.ofFn (A i) := by
  rw [toVector, List.ofFn_eq_map]
  change List.map _ (List.range m) = _
  rw [← List.map_coe_finRange_eq_range]
  simp only [List.map_map]
  refine List.map_congr_left fun i _ => ?_
  simp only [Function.comp, rowL]
  rw [List.ofFn_eq_map]
  change List.map _ (List.range d) = _
  rw [← List.map_coe_finRange_eq_range, List.map_map]
  refine List.map_congr_left fun a _ => ?_
  exact natFn_fin _ i a

/-- **C77** After any history of calls that ends with `compute`, `add_sample` or `recompute`, the object predicts exactly as the sparse Gaussian process with
pseudo-inputs for the data it holds and for the vector `w` that the optimizer returned in the last call: `query` gives the predictive mean and
variance, `pseudo_samples` the pseudo-inputs.  Every variance lies between the noise variance and the prior variance plus noise. -/
theorem C77_spgp_predictions {s : Start} {ops : List Op} {op : Op} {st : SpState E} {xs ys : List (List ℝ)} (hl : LltContract E.llt)
    (hj : 0 < E.P.jitter) (hop : op.refits = true) (h : make E s >>= (run · (ops ++ [op])) = .ok st) (hD : held s (ops ++ [op]) = (xs, ys))
    (hx : ∀ x ∈ xs, x ≠ []) :
    ∃ (d : Nat) (obj : List ℝ → Bool → Option (ℝ × Option (List ℝ))) (start w : List ℝ) (S : SpModel (spCount E.P.samplesPercent E.P.minM xs.length) xs.length d),
      DataSet xs ys d 1 ∧ E.hpOpt obj start false = .ok w ∧ S = SpModel.ofVec _ (spInputs xs.length d xs) E.P.jitter w
      ∧ Predicts st S (spPriorMean E.M ys) (spResid E.M xs.length xs ys)
      ∧ pseudoSamplesOf st = List.ofFn (fun i => List.ofFn (S.U i))
      ∧ ∀ x, S.sig ≤ S.var x ∧ S.var x ≤ S.c + S.sig := by
  obtain ⟨d, w0, w, st0, st1, hDS, hh, -, -, -, hm, -, hw, -, hf⟩ := history hl hj hop h hD hx
  rw [pseudoCount_eq] at hf
  refine ⟨d, _, w0, w, _, hDS, hw, rfl, fitted_predicts hl hj hDS hh hf, ?_, fun x => ?_⟩
  · rw [pseudoSamplesOf, hf.pseudo]
    exact toVector_matOf _
  · have hg := ofVec_good (m := spCount E.P.samplesPercent E.P.minM xs.length) (spInputs xs.length d xs) hj w
    exact ⟨SpModel.var_ge hg x, SpModel.var_le hg x⟩

/-- **C77** (many points) The means and variances that `predict` returns for many points (one per row) are those that `query` returns for each row. -/
theorem C77_spgp_batch {s : Start} {ops : List Op} {op : Op} {st : SpState E} {xs ys : List (List ℝ)} (hl : LltContract E.llt)
    (hj : 0 < E.P.jitter) (hop : op.refits = true) (h : make E s >>= (run · (ops ++ [op])) = .ok st) (hD : held s (ops ++ [op]) = (xs, ys))
    (hx : ∀ x ∈ xs, x ≠ []) {vs : List (List ℝ)} {xt : Mat} (hr : xt.rows = vs.length)
    (hc : ∀ v ∈ vs, v.length = xt.cols ∧ ∀ x ∈ xs, x.length = xt.cols)
    (he : ∀ i < vs.length, ∀ j < xt.cols, xt.e i j = (vs.getD i []).getD j 0) (hne : vs ≠ []) :
    ∃ R : Mat × (Nat → ℝ), predict st xt = .ok R ∧ R.1.rows = vs.length ∧ R.1.cols = 1
      ∧ ∀ i < vs.length, query st (vs.getD i []) = .ok (R.1.e i 0, R.2 i) := by
  obtain ⟨d, w0, w, st0, st1, hDS, hh, -, -, -, hm, -, hw, -, hf⟩ := history hl hj hop h hD hx
  have hs : st.samples.rows ≠ 0 := by
    rw [hh.srows]
    exact fun e => hh.ne (List.length_eq_zero_iff.mp e)
  have hcols : xt.cols = d := by
    obtain ⟨v, hv⟩ := List.exists_mem_of_ne_nil _ hne
    obtain ⟨x, hxm⟩ := List.exists_mem_of_ne_nil _ hDS.nonempty
    rw [← (hc v hv).2 x hxm, hDS.inputs x hxm]
  obtain ⟨R, hR, h1, h2, h3⟩ := predict_fitted (vecIn_ok hl _ _ _ hj w) hf hs (by rw [hh.dimOut]; rfl) (xt := xt) hcols
  refine ⟨R, hR, by rw [h1, hr], h2, fun i hi => ?_⟩
  obtain ⟨h4, h5⟩ := h3 i (by rw [hr]; exact hi)
  have hv : (vs.getD i []).length = d := by
    rw [List.getD_eq_getElem _ _ hi, (hc _ (List.getElem_mem hi)).1, hcols]
  rw [query_fitted (vecIn_ok hl _ _ _ hj w) hf hs (by rw [hh.dimOut]; rfl) hv, h4, h5]
  have hrow : rowL xt i = vs.getD i [] := rowL_eq (by rw [hv, hcols]) fun j hj => he i hi j (by rw [hcols, ← hv]; exact hj)
  have hpt : (fun a : Fin d => xt.e i a) = fun a : Fin d => at' (vs.getD i []) a := by
    funext a
    exact he i hi a (by rw [hcols]; exact a.2)
  rw [hrow]
  exact congrArg (fun z : Fin d → ℝ => (Except.ok (_, _) : SpRes (ℝ × ℝ))) hpt |>.trans (by
    refine congrArg Except.ok ?_
    refine Prod.ext ?_ ?_
    · exact congrArg (fun z : Fin d → ℝ => Spgp.meanAt st (vs.getD i []) 0 + (vecIn E.llt _ _ _ _ w).toSp.mean _ z) hpt.symm
    · exact congrArg (fun z : Fin d → ℝ => (vecIn E.llt _ _ _ _ w).toSp.var z) hpt.symm)

theorem halfDiff_even {n m : Nat} (h : m ≤ n) (hn : n < 2 ^ 63) : (((n : Int) - m) % 2 ^ 64).toNat / 2 = (n - m) / 2 := by
  have : (((n : Int) - m) % 2 ^ 64) = ((n - m : Nat) : Int) := by
    rw [Int.emod_eq_of_lt] <;> omega
  rw [this]
  rfl

/-- The value of the objective for one vector of hyper-parameters. -/
theorem objective_value {llt : Nat → (Nat → Nat → ℝ) → Nat → Nat → ℝ} (hl : LltContract llt) {m n d : Nat} (X : Matrix (Fin n) (Fin d) ℝ) (r : Fin n → ℝ)
    {δ : ℝ} (hδ : 0 < δ) (w : List ℝ) (hmn : m ≤ n) (hn : n < 2 ^ 63) :
    (vecIn llt m X r δ w).fw = (SpModel.ofVec m X δ w).nll r - if (n - m) % 2 = 1 then 1 / 2 * Real.log (SpModel.ofVec m X δ w).sig else 0 := by
  rw [LikIn.fw_eq (vecIn_ok hl m X r hδ w)]
  have h1 : (vecIn llt m X r δ w).halfDiff = (n - m) / 2 := halfDiff_even hmn hn
  have h2 : ((n : ℝ) - m) = ((n - m : Nat) : ℝ) := by rw [Nat.cast_sub hmn]
  change (SpModel.ofVec m X δ w).nll r + (((vecIn llt m X r δ w).halfDiff : ℝ) - ((n : ℝ) - m) / 2) * Real.log (SpModel.ofVec m X δ w).sig = _
  rw [h1, h2]
  generalize n - m = q
  rcases Nat.even_or_odd' q with ⟨k, rfl | rfl⟩
  · rw [if_neg (by omega), Nat.mul_div_cancel_left _ (by norm_num)]
    push_cast
    ring
  · rw [if_pos (by omega)]
    have : (2 * k + 1) / 2 = k := by omega
    rw [this]
    push_cast
    ring

/-- What the optimizer is given in the last call of a history. -/
theorem history_objective {s : Start} {ops : List Op} {op : Op} {st : SpState E} {xs ys : List (List ℝ)} (hl : LltContract E.llt)
    (hj : 0 < E.P.jitter) (hop : op.refits = true) (h : make E s >>= (run · (ops ++ [op])) = .ok st) (hD : held s (ops ++ [op]) = (xs, ys))
    (hx : ∀ x ∈ xs, x ≠ []) :
    ∃ (d : Nat) (obj : List ℝ → Bool → Option (ℝ × Option (List ℝ))) (start w : List ℝ),
      DataSet xs ys d 1 ∧ E.hpOpt obj start false = .ok w
      ∧ Predicts st (SpModel.ofVec (spCount E.P.samplesPercent E.P.minM xs.length) (spInputs xs.length d xs) E.P.jitter w) (spPriorMean E.M ys)
        (spResid E.M xs.length xs ys)
      ∧ spCount E.P.samplesPercent E.P.minM xs.length ≤ xs.length
      ∧ (∀ v g, (spCount E.P.samplesPercent E.P.minM xs.length + 1) * d + 2 ≤ v.length →
        obj v g = some ((vecIn E.llt (spCount E.P.samplesPercent E.P.minM xs.length) (spInputs xs.length d xs) (spResid E.M xs.length xs ys) E.P.jitter v).result g)) := by
  obtain ⟨d, w0, w, st0, st1, hDS, hh, hh0, hst, hh1, hm, hdel, hw, -, hf⟩ := history hl hj hop h hD hx
  have hle := ((startVector_iff hh0 hDS.same hDS.din_pos _).mp ⟨w0, hst⟩).enough
  rw [pseudoCount_eq] at hf hm hle
  refine ⟨d, _, w0, w, hDS, hw, fitted_predicts hl hj hDS hh hf, hle, fun v g hv => ?_⟩
  rw [if_pos (sets_of_ok (by simp) h (by rw [hD]; exact hx))] at hdel
  exact likelihood_eq hm hh1.srows (by rw [hh1.dimIn]; rfl) (fun i a => hh1.se i i.2 a a.2) (fun i => hh1.resid_eq hDS.din_pos hDS.same i)
      (by rw [hh1.zm]; exact hh1.orows.trans hDS.same) (by rw [hh1.zm]; exact hh1.ocols) hdel hv g

/-- **C78** The objective that the optimizer of the hyper-parameters maximizes is the log marginal likelihood of the data under the sparse process —
exactly if the number of samples minus the number of pseudo-inputs is even, and half the logarithm of the noise variance more if it is
odd (an integer division). -/
theorem C78_spgp_objective {s : Start} {ops : List Op} {op : Op} {st : SpState E} {xs ys : List (List ℝ)} (hl : LltContract E.llt)
    (hj : 0 < E.P.jitter) (hop : op.refits = true) (h : make E s >>= (run · (ops ++ [op])) = .ok st) (hD : held s (ops ++ [op]) = (xs, ys))
    (hx : ∀ x ∈ xs, x ≠ []) (hn : xs.length < 2 ^ 63) :
    ∃ (d m : Nat) (obj : List ℝ → Bool → Option (ℝ × Option (List ℝ))) (start w : List ℝ),
      DataSet xs ys d 1 ∧ m = spCount E.P.samplesPercent E.P.minM xs.length ∧ m ≤ xs.length ∧ E.hpOpt obj start false = .ok w
      ∧ Predicts st (SpModel.ofVec m (spInputs xs.length d xs) E.P.jitter w) (spPriorMean E.M ys) (spResid E.M xs.length xs ys)
      ∧ ∀ v g (S : SpModel m xs.length d), (m + 1) * d + 2 ≤ v.length → S = SpModel.ofVec m (spInputs xs.length d xs) E.P.jitter v →
        ∃ gr, obj v g = some (-S.nll (spResid E.M xs.length xs ys) + (if (xs.length - m) % 2 = 1 then 1 / 2 * Real.log S.sig else 0), gr) := by
  obtain ⟨d, obj, w0, w, hDS, hw, hp, hle, ho⟩ := history_objective hl hj hop h hD hx
  refine ⟨d, _, obj, w0, w, hDS, rfl, hle, hw, hp, ?_⟩
  rintro v g S hv rfl
  refine ⟨((vecIn E.llt (spCount E.P.samplesPercent E.P.minM xs.length) (spInputs xs.length d xs) (spResid E.M xs.length xs ys) E.P.jitter v).result g).2, ?_⟩
  rw [ho v g hv]
  refine congrArg some (Prod.ext ?_ rfl)
  simp only [LikIn.result]
  rw [objective_value hl _ _ hj v hle hn]
  ring

/-- **C79** The gradient that the objective returns is the gradient of the log marginal likelihood: component `p` is its partial derivative with respect
to entry `p` of the vector (a coordinate of a pseudo-input, or the logarithm of a length scale parameter, of the amplitude or of the noise). -/
theorem C79_spgp_gradient {s : Start} {ops : List Op} {op : Op} {st : SpState E} {xs ys : List (List ℝ)} (hl : LltContract E.llt)
    (hj : 0 < E.P.jitter) (hop : op.refits = true) (h : make E s >>= (run · (ops ++ [op])) = .ok st) (hD : held s (ops ++ [op]) = (xs, ys))
    (hx : ∀ x ∈ xs, x ≠ []) :
    ∃ (d m : Nat) (obj : List ℝ → Bool → Option (ℝ × Option (List ℝ))) (start w : List ℝ),
      DataSet xs ys d 1 ∧ m = spCount E.P.samplesPercent E.P.minM xs.length ∧ E.hpOpt obj start false = .ok w
      ∧ Predicts st (SpModel.ofVec m (spInputs xs.length d xs) E.P.jitter w) (spPriorMean E.M ys) (spResid E.M xs.length xs ys)
      ∧ ∀ v, (m + 1) * d + 2 ≤ v.length → ∃ val gr, obj v true = some (val, some gr) ∧ gr.length = (m + 1) * d + 2
        ∧ ∀ p < (m + 1) * d + 2, HasDerivAt (fun t => -(SpModel.ofVec m (spInputs xs.length d xs) E.P.jitter (v.set p t)).nll (spResid E.M xs.length xs ys))
          (gr.getD p 0) (v.getD p 0) := by
  obtain ⟨d, obj, w0, w, hDS, hw, hp, hle, ho⟩ := history_objective hl hj hop h hD hx
  refine ⟨d, _, obj, w0, w, hDS, rfl, hw, hp, fun v hv => ⟨_, _, ho v true hv, ?_, fun p hpp => ?_⟩⟩
  · rw [List.length_map]
    exact LikIn.dfw_length _
  · have hd := (nll_partial hl (spInputs xs.length d xs) (spResid E.M xs.length xs ys) hj hv hpp).neg
    refine hd.congr_deriv ?_
    have hlen := LikIn.dfw_length (vecIn E.llt (spCount E.P.samplesPercent E.P.minM xs.length) (spInputs xs.length d xs) (spResid E.M xs.length xs ys) E.P.jitter v)
    change _ = (spCount E.P.samplesPercent E.P.minM xs.length + 1) * d + 2 at hlen
    rw [List.getD_eq_getElem _ _ (by rw [hlen]; exact hpp), List.getD_eq_getElem _ _ (by rw [List.length_map, hlen]; exact hpp), List.getElem_map]
    ring

/-- **C79** (finding) If the number of samples minus the number of pseudo-inputs is odd, the last component of the returned gradient is not the derivative
of the returned value: the two differ by one half. -/
theorem C79_spgp_gradient_odd {s : Start} {ops : List Op} {op : Op} {st : SpState E} {xs ys : List (List ℝ)} (hl : LltContract E.llt)
    (hj : 0 < E.P.jitter) (hop : op.refits = true) (h : make E s >>= (run · (ops ++ [op])) = .ok st) (hD : held s (ops ++ [op]) = (xs, ys))
    (hx : ∀ x ∈ xs, x ≠ []) (hn : xs.length < 2 ^ 63)
    (hodd : (xs.length - spCount E.P.samplesPercent E.P.minM xs.length) % 2 = 1) :
    ∃ (d p : Nat) (obj : List ℝ → Bool → Option (ℝ × Option (List ℝ))) (start w : List ℝ),
      DataSet xs ys d 1 ∧ p = (spCount E.P.samplesPercent E.P.minM xs.length + 1) * d + 1 ∧ E.hpOpt obj start false = .ok w
      ∧ ∀ v, p < v.length → ∃ val gr, obj v true = some (val, some gr)
        ∧ HasDerivAt (fun t => ((obj (v.set p t) false).map Prod.fst).getD 0) (gr.getD p 0 + 1 / 2) (v.getD p 0) := by
  obtain ⟨d, obj, w0, w, hDS, hw, hp, hle, ho⟩ := history_objective hl hj hop h hD hx
  set m := spCount E.P.samplesPercent E.P.minM xs.length
  refine ⟨d, _, obj, w0, w, hDS, rfl, hw, fun v hv => ⟨_, _, ho v true hv, ?_⟩⟩
  have hd := (nll_partial hl (spInputs xs.length d xs) (spResid E.M xs.length xs ys) hj (w := v) (p := (m + 1) * d + 1) hv (by omega)).neg
  have hlen : (vecIn E.llt m (spInputs xs.length d xs) (spResid E.M xs.length xs ys) E.P.jitter v).dfw.length = (m + 1) * d + 2 := LikIn.dfw_length _
  have he : (fun t => ((obj (v.set ((m + 1) * d + 1) t) false).map Prod.fst).getD 0)
      = fun t => -(SpModel.ofVec m (spInputs xs.length d xs) E.P.jitter (v.set ((m + 1) * d + 1) t)).nll (spResid E.M xs.length xs ys) + 1 / 2 * t := by
    funext t
    have hv' : (m + 1) * d + 2 ≤ (v.set ((m + 1) * d + 1) t).length := by
      rw [List.length_set]
      exact hv
    rw [ho _ false hv']
    simp only [Option.map_some, Option.getD_some, LikIn.result]
    rw [objective_value hl _ _ hj _ hle hn, if_pos hodd]
    have : Real.log (SpModel.ofVec m (spInputs xs.length d xs) E.P.jitter (v.set ((m + 1) * d + 1) t)).sig = t := by
      simp only [SpModel.ofVec]
      rw [Real.log_exp, List.getD_eq_getElem _ _ (by rw [List.length_set]; exact hv), List.getElem_set_self]
    rw [this]
    ring
  rw [he]
  refine (hd.add ((hasDerivAt_id (v.getD ((m + 1) * d + 1) 0)).const_mul (1 / 2))).congr_deriv ?_
  rw [List.getD_eq_getElem _ _ (by rw [hlen]; omega), List.getD_eq_getElem _ _ (by rw [List.length_map, hlen]; omega), List.getElem_map]
  ring

/-- **C80** After any history, `samples` and `nb_samples` tell the inputs given so far; after at least one call the number of pseudo-inputs is the
configured percentage of that number, but not less than the configured minimum, and never more than the number of samples. -/
theorem C80_spgp_samples {s : Start} {ops : List Op} {st : SpState E} {xs ys : List (List ℝ)} (h : make E s >>= (run · ops) = .ok st)
    (hD : held s ops = (xs, ys)) :
    samplesOf st = xs ∧ nbSamples st = xs.length
      ∧ (ops ≠ [] → nbPseudoSamples st = spCount E.P.samplesPercent E.P.minM xs.length ∧ nbPseudoSamples st ≤ nbSamples st
        ∧ (pseudoSamplesOf st).length = nbPseudoSamples st ∧ ∀ u ∈ pseudoSamplesOf st, ∀ x ∈ xs, u.length = x.length) := by
  obtain ⟨sa, ha, h⟩ := SpRes.bind_ok h
  obtain ⟨hia, hda⟩ := make_inv ha
  obtain ⟨hi, -⟩ := run_inv hia h
  have hi' : Inv st (xs, ys) := by rw [← hD]; exact hi
  have h12 : samplesOf st = xs ∧ nbSamples st = xs.length := by
    rcases hi' with ⟨e1, -, he⟩ | ⟨d, p, hd⟩
    · simp only at e1
      subst e1
      exact ⟨by rw [samplesOf, toVector, he.1]; rfl, he.1⟩
    · exact ⟨hd.samplesOf, hd.srows⟩
  refine ⟨h12.1, h12.2, fun hne => ?_⟩
  obtain ⟨ops', op, rfl⟩ : ∃ o p, ops = o ++ [p] := ⟨_, _, (List.dropLast_append_getLast hne).symm⟩
  obtain ⟨sb, hb, h⟩ := run_append h
  obtain ⟨hib, -⟩ := run_inv hia hb
  obtain ⟨s1, d, p, hd, hinit, -, hc⟩ := step_ok hib h
  have hD' : heldStep (List.foldl heldStep (heldStart s) ops') op = (xs, ys) := by
    rw [← hD, held, List.foldl_append]
    rfl
  rw [hD'] at hd
  simp only at hd
  have key : ∀ sx, optimizeHp op.perm s1 = .ok sx → sx.pseudo = st.pseudo →
      nbPseudoSamples st = spCount E.P.samplesPercent E.P.minM xs.length ∧ nbPseudoSamples st ≤ nbSamples st
        ∧ (pseudoSamplesOf st).length = nbPseudoSamples st ∧ ∀ u ∈ pseudoSamplesOf st, ∀ x ∈ xs, u.length = x.length := by
    intro sx hsx hps
    obtain ⟨w0, w, st1, hp, hw0, hs, hm, -, -, rfl⟩ := optimizeHp_ok hinit hsx
    have e1 : st.pseudo.rows = spCount E.P.samplesPercent E.P.minM xs.length := by
      rw [← hps, ← pseudoCount_eq, ← hd.srows, ← hm]
      rfl
    have e2 : st.pseudo.cols = d := by
      rw [← hps]
      change st1.dimIn.toNat = d
      rw [hs.dimIn, hd.dimIn]
      rfl
    refine ⟨e1, ?_, ?_, ?_⟩
    · rw [h12.2, nbPseudoSamples, e1, ← pseudoCount_eq]
      unfold startVector at hw0
      simp only [updateM, hd.srows] at hw0
      split_ifs at hw0 with c1
      push Not at c1
      exact c1.2
    · rw [pseudoSamplesOf, toVector, List.length_map, List.length_range, nbPseudoSamples]
    · intro u hu x hx
      rw [pseudoSamplesOf, toVector] at hu
      obtain ⟨i, -, rfl⟩ := List.mem_map.mp hu
      rw [rowL, List.length_map, List.length_range, e2, hd.xlen x hx]
  split_ifs at hc
  · have hc' := hc
    unfold compute' at hc'
    obtain ⟨sx, h0, h1⟩ := SpRes.bind_ok hc'
    obtain ⟨k, hk, h1⟩ := SpRes.bind_ok h1
    obtain ⟨kmn, hkmn, h1⟩ := SpRes.bind_ok h1
    simp only at h1
    split_ifs at h1
    cases h1
    exact key sx h0 rfl
  · exact key st hc rfl

/-- The start vector. -/
theorem start_spec {st0 : SpState E} {xs ys : List (List ℝ)} {d : Nat} {perm : Nat → Nat} {w0 : List ℝ} (δ : ℝ) (hDS : DataSet xs ys d 1)
    (hh : Holds st0 xs ys d 1) (hst : startVector (updateM st0) perm = .ok w0) {m : Nat} (hmm : m = spCount E.P.samplesPercent E.P.minM xs.length)
    {S : SpModel m xs.length d} (hS : S = SpModel.ofVec m (spInputs xs.length d xs) δ w0) :
    w0.length = (m + 1) * d + 2
      ∧ (∀ k, ∃ i j, (∀ l, S.X j k ≤ S.X l k ∧ S.X l k ≤ S.X i k) ∧ S.b k = 4 / (S.X i k - S.X j k) ^ 2)
      ∧ S.c = (∑ i, spResid E.M xs.length xs ys i ^ 2) / xs.length ∧ S.sig = S.c / 4
      ∧ (∀ i : Fin m, perm i < xs.length → ∀ k : Fin d, w0.getD (i * d + k) 0 = (xs.getD (perm i) []).getD k 0)
      ∧ ((m = 1 ∨ d = 1) → ∀ i : Fin m, perm i < xs.length → ∀ k, S.U i k = (xs.getD (perm i) []).getD k 0) := by
  subst hS
  have hlen := startVector_length hst
  have hSt := (startVector_iff hh hDS.same hDS.din_pos _).mp ⟨w0, hst⟩
  have hn : 0 < xs.length := List.length_pos_iff.mpr hDS.nonempty
  have hdim : st0.dimIn.toNat = d := by rw [hh.dimIn]; rfl
  have hmu : (updateM st0).m = spCount E.P.samplesPercent E.P.minM xs.length := by
    rw [← pseudoCount_eq, ← hh.srows]
    rfl
  rw [← hmm] at hmu
  have hzc : st0.obsZm.cols = 1 := by rw [hh.zm]; exact hh.ocols
  have hzr : st0.obsZm.rows = xs.length := by rw [hh.zm]; exact hh.orows.trans hDS.same
  have hms : meanSq st0.obsZm = (∑ i, spResid E.M xs.length xs ys i ^ 2) / xs.length := by
    unfold meanSq
    rw [hzc, hzr, Nat.mul_one, sum_range_fin]
    congr 1
    refine Finset.sum_congr rfl fun i _ => ?_
    rw [Finset.range_one, Finset.sum_singleton, hh.resid_eq hDS.din_pos hDS.same i]
  have hmpos : 0 < meanSq st0.obsZm := by
    obtain ⟨i, hi⟩ := hSt.signal
    refine lt_of_le_of_ne (meanSq_nonneg _) fun e => hi ?_
    have := (meanSq_zero hzc (by rw [hzr]; exact hn)).mp e.symm i (by rw [hzr]; exact i.2)
    rwa [hh.resid_eq hDS.din_pos hDS.same i] at this
  unfold startVector at hst
  simp only at hst
  split_ifs at hst with c1 c2
  have hst := Except.ok.inj hst
  rw [hmu] at hst hlen
  have hdim' : (updateM st0).dimIn.toNat = d := hdim
  have hsr : (updateM st0).samples = st0.samples := rfl
  have hoz : (updateM st0).obsZm = st0.obsZm := rfl
  rw [hdim', hsr, hoz, hh.srows] at hst
  rw [hdim'] at hlen
  have hblk : ((List.range m).flatMap fun i => (List.range d).map fun k => st0.samples.e (perm i) k).length = m * d := by
    rw [length_flatMap_blocks (m := d) _ (by simp), List.length_range]
  have hmd : (m + 1) * d = m * d + d := Nat.succ_mul m d
  have gb : ∀ k < d, w0.getD (m * d + k) 0 = -2 * Real.log (colRange st0.samples (xs.length - 1) k / 2) := by
    intro k hk
    rw [← hst, List.getD_append _ _ _ _ (by rw [List.length_append, hblk]; simpa using hk), List.getD_append_right _ _ _ _ (by rw [hblk]; omega), hblk,
      Nat.add_sub_cancel_left, List.getD_eq_getElem _ _ (by simpa using hk)]
    simp
  have hbl2 : ((List.range m).flatMap (fun i => (List.range d).map fun k => st0.samples.e (perm i) k)
      ++ (List.range d).map (fun k => -2 * Real.log (colRange st0.samples (xs.length - 1) k / 2))).length = (m + 1) * d := by
    rw [List.length_append, hblk, List.length_map, List.length_range, hmd]
  have gc : w0.getD ((m + 1) * d) 0 = Real.log (meanSq st0.obsZm) := by
    rw [← hst, List.getD_append_right _ _ _ _ (by rw [hbl2]), hbl2, Nat.sub_self]
    rfl
  have gs : w0.getD ((m + 1) * d + 1) 0 = Real.log (meanSq st0.obsZm / 4) := by
    rw [← hst, List.getD_append_right _ _ _ _ (by rw [hbl2]; omega), hbl2, Nat.add_sub_cancel_left]
    rfl
  have hX : ∀ (i : Fin xs.length) (k : Fin d), st0.samples.e i k = spInputs xs.length d xs i k := fun i k => hh.se i i.2 k k.2
  have grow : ∀ i : Fin m, perm i < xs.length → ∀ k : Fin d, w0.getD (i * d + k) 0 = (xs.getD (perm i) []).getD k 0 := by
    intro i hi k
    have hlt : i.1 * d + k.1 < m * d := by
      have := Nat.mul_le_mul_right d i.2
      rw [Nat.succ_mul] at this
      have := k.2
      omega
    rw [← hst, List.getD_append _ _ _ _ (by rw [List.length_append, hblk]; omega), List.getD_append _ _ _ _ (by rw [hblk]; exact hlt),
      getD_flatMap_blocks (m := d) _ (by simp) (by simp) k.2, List.getD_eq_getElem _ _ (by simp)]
    simp only [List.getElem_range, List.getElem_map]
    exact hh.se _ hi k k.2
  refine ⟨hlen, fun k => ?_, ?_, ?_, grow, fun hone i hi k => ?_⟩
  · obtain ⟨i, hi, hi2⟩ := Finset.exists_mem_eq_sup' (Finset.nonempty_range_add_one (n := xs.length - 1)) fun i => st0.samples.e i k
    obtain ⟨j, hj1, hj2⟩ := Finset.exists_mem_eq_inf' (Finset.nonempty_range_add_one (n := xs.length - 1)) fun i => st0.samples.e i k
    have hi' : i < xs.length := by have := Finset.mem_range.mp hi; omega
    have hj' : j < xs.length := by have := Finset.mem_range.mp hj1; omega
    have hcr : colRange st0.samples (xs.length - 1) k = spInputs xs.length d xs ⟨i, hi'⟩ k - spInputs xs.length d xs ⟨j, hj'⟩ k := by
      rw [← hX, ← hX]
      unfold colRange
      rw [hi2, hj2]
    refine ⟨⟨i, hi'⟩, ⟨j, hj'⟩, fun l => ⟨?_, ?_⟩, ?_⟩
    · change spInputs xs.length d xs _ _ ≤ spInputs xs.length d xs _ _
      rw [← hX, ← hX]
      exact hj2.symm.le.trans (Finset.inf'_le (fun i => st0.samples.e i k) (Finset.mem_range.mpr (by have := l.2; omega)))
    · change spInputs xs.length d xs _ _ ≤ spInputs xs.length d xs _ _
      rw [← hX, ← hX]
      exact (Finset.le_sup' (fun i => st0.samples.e i k) (Finset.mem_range.mpr (by have := l.2; omega))).trans hi2.le
    · have hpos : 0 < colRange st0.samples (xs.length - 1) k := by
        refine lt_of_le_of_ne (colRange_nonneg _ _ _) fun e => ?_
        obtain ⟨a, ha, b, hb, hab⟩ := hSt.spread k k.2
        have := colRange_zero.mp e.symm a (by omega) b (by omega)
        rw [hh.se a ha k k.2, hh.se b hb k k.2] at this
        exact hab this
      change Real.exp (w0.getD (m * d + k) 0) = 4 / (spInputs xs.length d xs ⟨i, hi'⟩ k - spInputs xs.length d xs ⟨j, hj'⟩ k) ^ 2
      rw [gb k k.2, ← hcr]
      have h2 : 0 < colRange st0.samples (xs.length - 1) k / 2 := by linarith
      have : -2 * Real.log (colRange st0.samples (xs.length - 1) k / 2) = -(Real.log (colRange st0.samples (xs.length - 1) k / 2) + Real.log (colRange st0.samples (xs.length - 1) k / 2)) := by ring
      rw [this, Real.exp_neg, Real.exp_add, Real.exp_log h2]
      field_simp
      norm_num
  · change Real.exp (w0.getD ((m + 1) * d) 0) = _
    rw [gc, Real.exp_log hmpos, hms]
  · change Real.exp (w0.getD ((m + 1) * d + 1) 0) = Real.exp (w0.getD ((m + 1) * d) 0) / 4
    rw [gs, gc, Real.exp_log hmpos, Real.exp_log (by linarith)]
  · change w0.getD (k.1 * m + i.1) 0 = _
    rw [← grow i hi k]
    congr 1
    rcases hone with e | e
    · have h0 : i.1 = 0 := by have := i.2; omega
      rw [h0, Nat.zero_mul, e]
      omega
    · have h0 : k.1 = 0 := by have := k.2; omega
      rw [h0, Nat.zero_mul, e]
      omega

/-- **C81** The search for the hyper-parameters starts from a vector that lists the inputs selected by the random shuffle one after the other, followed by the
logarithms of: length scale parameters `4 / range²` of each input coordinate, amplitude the mean square of the
residuals, noise a quarter of it.  These inputs are the initial pseudo-inputs *if there is one pseudo-input or one input coordinate*. -/
theorem C81_spgp_start {s : Start} {ops : List Op} {op : Op} {st : SpState E} {xs ys : List (List ℝ)} (hl : LltContract E.llt)
    (hj : 0 < E.P.jitter) (hop : op.refits = true) (h : make E s >>= (run · (ops ++ [op])) = .ok st) (hD : held s (ops ++ [op]) = (xs, ys))
    (hx : ∀ x ∈ xs, x ≠ []) :
    ∃ (d m : Nat) (obj : List ℝ → Bool → Option (ℝ × Option (List ℝ))) (start w : List ℝ) (S : SpModel m xs.length d),
      DataSet xs ys d 1 ∧ m = spCount E.P.samplesPercent E.P.minM xs.length ∧ E.hpOpt obj start false = .ok w ∧ start.length = (m + 1) * d + 2
      ∧ S = SpModel.ofVec m (spInputs xs.length d xs) E.P.jitter start
      ∧ (∀ k, ∃ i j, (∀ l, S.X j k ≤ S.X l k ∧ S.X l k ≤ S.X i k) ∧ S.b k = 4 / (S.X i k - S.X j k) ^ 2)
      ∧ S.c = (∑ i, spResid E.M xs.length xs ys i ^ 2) / xs.length ∧ S.sig = S.c / 4
      ∧ (∀ i : Fin m, op.perm i < xs.length → ∀ k : Fin d, start.getD (i * d + k) 0 = (xs.getD (op.perm i) []).getD k 0)
      ∧ ((m = 1 ∨ d = 1) → ∀ i : Fin m, op.perm i < xs.length → ∀ k, S.U i k = (xs.getD (op.perm i) []).getD k 0) := by
  obtain ⟨d, w0, w, st0, st1, hDS, hh, hh0, hst, hh1, hm, hdel, hw, -, hf⟩ := history hl hj hop h hD hx
  obtain ⟨h1, h2⟩ := start_spec E.P.jitter hDS hh0 hst rfl rfl
  exact ⟨d, _, _, w0, w, _, hDS, rfl, hw, h1, rfl, h2⟩

/-- **C82** A call with a proper data set (equally many inputs and one-dimensional observations) returns if and only if there are at least as many samples as
pseudo-inputs, the samples differ in every coordinate, and not every observation equals the prior mean.  (The optimizer is assumed to
return a vector that is not shorter than its start.) -/
theorem C82_spgp_returns {s : Start} {ops : List Op} {op : Op} {st0 : SpState E} {xs ys : List (List ℝ)} {d : Nat}
    (h : make E s >>= (run · ops) = .ok st0) (hD : held s (ops ++ [op]) = (xs, ys)) (hDS : DataSet xs ys d 1)
    (ho : ∀ obj w0, ∃ w, E.hpOpt obj w0 false = .ok w ∧ w0.length ≤ w.length) :
    (∃ st, make E s >>= (run · (ops ++ [op])) = .ok st) ↔
      spCount E.P.samplesPercent E.P.minM xs.length ≤ xs.length
      ∧ (∀ k < d, ∃ x ∈ xs, ∃ x' ∈ xs, x.getD k 0 ≠ x'.getD k 0)
      ∧ ∃ i : Fin xs.length, (ys.getD i []).getD 0 0 ≠ spPriorMean E.M ys (xs.getD i []) := by
  obtain ⟨sa, ha, h⟩ := SpRes.bind_ok h
  obtain ⟨hia, hda⟩ := make_inv ha
  obtain ⟨hi, -⟩ := run_inv hia h
  have hD' : heldStep (List.foldl heldStep (heldStart s) ops) op = (xs, ys) := by
    rw [← hD, held, List.foldl_append]
    rfl
  have hr := step_returns (op := op) (d := d) hi (by rw [hD']; exact hDS) ho
  rw [hD'] at hr
  simp only at hr
  have e : (∃ st, make E s >>= (run · (ops ++ [op])) = .ok st) ↔ ∃ st', step st0 op = .ok st' := by
    constructor
    · rintro ⟨st, hst⟩
      rw [ha] at hst
      obtain ⟨st1, h1, h2⟩ := run_append hst
      rw [h] at h1
      cases h1
      exact ⟨st, h2⟩
    · rintro ⟨st', hst⟩
      refine bind_ex ha ?_
      unfold run at h ⊢
      rw [List.foldlM_append]
      refine bind_ex h ?_
      simp only [List.foldlM_cons, List.foldlM_nil]
      exact bind_ex hst ⟨_, rfl⟩
  rw [e, hr]
  constructor
  · rintro ⟨a, b, c⟩
    refine ⟨by rw [← pseudoCount_eq]; exact a, fun k hk => ?_, ?_⟩
    · obtain ⟨i, hi, j, hj, hij⟩ := b k hk
      rw [List.getD_eq_getElem _ _ hi, List.getD_eq_getElem _ _ hj] at hij
      exact ⟨_, List.getElem_mem hi, _, List.getElem_mem hj, hij⟩
    · obtain ⟨i, hi⟩ := c
      exact ⟨i, fun e => hi (sub_eq_zero.mpr e)⟩
  · rintro ⟨a, b, c⟩
    refine ⟨by rw [pseudoCount_eq]; exact a, fun k hk => ?_, ?_⟩
    · obtain ⟨x, hx, x', hx', hne⟩ := b k hk
      obtain ⟨i, hi, rfl⟩ := List.getElem_of_mem hx
      obtain ⟨j, hj, rfl⟩ := List.getElem_of_mem hx'
      exact ⟨i, hi, j, hj, by rwa [List.getD_eq_getElem _ _ hi, List.getD_eq_getElem _ _ hj]⟩
    · obtain ⟨i, hi⟩ := c
      exact ⟨i, fun e => hi (sub_eq_zero.mp e)⟩

/-- **C82** (finding) No call returns on observations with more than one component: the class only works for one output. -/
theorem C82_spgp_one_output {s : Start} {ops : List Op} {op : Op} {xs ys : List (List ℝ)} (hl : LltContract E.llt) (hj : 0 < E.P.jitter)
    (hop : op.refits = true) (hD : held s (ops ++ [op]) = (xs, ys)) (hx : ∀ x ∈ xs, x ≠ []) {y : List ℝ} (hy : y ∈ ys) (hy1 : y.length ≠ 1)
    (st : SpState E) : make E s >>= (run · (ops ++ [op])) ≠ .ok st := by
  intro h
  obtain ⟨d, w0, w, st0, st1, hDS, -⟩ := history hl hj hop h hD hx
  exact hy1 (hDS.outputs y hy)

/-- **C82** (finding) An object made without data cannot be filled with `add_sample` alone: the first call never returns normally (with one sample the range of
every coordinate is zero and its logarithm infinite), so no history of calls without `compute` does. -/
theorem C82_spgp_add_only {s : Start} {ops : List Op} (hs : ∀ u a b, s ≠ .data u a b) (hne : ops ≠ []) (hops : ∀ op ∈ ops, ∀ a b p, op ≠ .compute a b p)
    (hx : ∀ x ∈ (held s ops).1, x ≠ []) (st : SpState E) : make E s >>= (run · ops) ≠ .ok st := by
  intro h
  have := sets_of_ok hne h hx
  rw [Bool.or_eq_true] at this
  rcases this with h1 | h1
  · cases s with
    | default u => cases h1
    | dims u i o => cases h1
    | data u a b => exact hs u a b rfl
  · obtain ⟨op, hm, ho⟩ := List.any_eq_true.mp h1
    cases op with
    | compute a b p => exact hops _ hm a b p rfl
    | add x y p => cases ho
    | recompute p => cases ho
    | optimizeHyperparams p => cases ho

/-- **C83** For inputs of one coordinate `sigma` returns the variance of `query`.  (finding) For inputs of more coordinates `sigma` never returns: the point is
passed as a column instead of a row. -/
theorem C83_spgp_sigma {s : Start} {ops : List Op} {op : Op} {st : SpState E} {xs ys : List (List ℝ)} (hl : LltContract E.llt)
    (hj : 0 < E.P.jitter) (hop : op.refits = true) (h : make E s >>= (run · (ops ++ [op])) = .ok st) (hD : held s (ops ++ [op]) = (xs, ys))
    (hx : ∀ x ∈ xs, x ≠ []) :
    ∃ d, DataSet xs ys d 1 ∧ (d = 1 → ∀ t : ℝ, ∃ μ σ2, query st [t] = .ok (μ, σ2) ∧ sigma st [t] = .ok σ2) ∧ (d ≠ 1 → ∀ v : List ℝ, sigma st v = .error .ub) := by
  obtain ⟨d, w0, w, st0, st1, hDS, hh, -, -, -, hm, -, hw, -, hf⟩ := history hl hj hop h hD hx
  refine ⟨d, hDS, fun hd t => ?_, fun hd v => ?_⟩
  · subst hd
    refine ⟨_, _, fitted_predicts hl hj hDS hh hf [t] rfl, ?_⟩
    have hs : st.samples.rows ≠ 0 := by
      rw [hh.srows]
      exact fun e => hh.ne (List.length_eq_zero_iff.mp e)
    obtain ⟨R, hR, h1, h2, h3⟩ := predict_fitted (vecIn_ok hl _ _ _ hj w) hf hs (by rw [hh.dimOut]; rfl) (xt := colMat [t]) rfl
    obtain ⟨h4, h5⟩ := h3 0 Nat.one_pos
    unfold sigma
    rw [hR]
    change (if [t].length = 0 then .error .ub else Except.ok (R.2 0)) = _
    rw [if_neg (by simp), h5]
    refine congrArg Except.ok ?_
    refine congrArg (SpModel.var _) ?_
    change (fun a : Fin 1 => (colMat [t]).e 0 a) = fun a : Fin 1 => [t].getD a 0
    funext a
    fin_cases a
    rfl
  · unfold sigma predict
    have hs : st.samples.rows ≠ 0 := by
      rw [hh.srows]
      exact fun e => hh.ne (List.length_eq_zero_iff.mp e)
    rw [if_neg hs]
    unfold kernelMatrix
    have hb : st.b.length = d := by
      rw [hf.b]
      simp [vecIn]
    rw [if_neg (by rintro ⟨-, e⟩; rw [hb] at e; exact hd e.symm)]
    rfl

/-- **C83** (finding) After the constructor with data and no further call, `query` is undefined. -/
theorem C83_spgp_not_computed {u : Nat × ℝ × ℝ} {xs ys : List (List ℝ)} {st : SpState E} (h : make E (.data u xs ys) = .ok st) {v : List ℝ} (hv : v ≠ []) :
    query st v = .error .ub := by
  have h' := h
  change newData E u xs ys = .ok st at h
  unfold newData at h
  obtain ⟨sm, hs, h⟩ := SpRes.bind_ok h
  obtain ⟨om, ho, h⟩ := SpRes.bind_ok h
  obtain ⟨hx0, hx1, -⟩ := toMatrix_ok hs
  unfold init at h
  obtain ⟨st1, h1, h2⟩ := SpRes.bind_ok h
  obtain ⟨hr, rfl⟩ := zm_ok h1
  cases h2
  unfold query predict
  rw [if_neg]
  · unfold kernelMatrix
    rw [if_neg]
    · rfl
    · rintro ⟨-, e⟩
      exact hv (List.length_eq_zero_iff.mp e)
  · change ¬ sm.rows = 0
    rw [hx1]
    exact fun e => hx0 (List.length_eq_zero_iff.mp e)

theorem unpack_fields (llt : Nat → (Nat → Nat → ℝ) → Nat → Nat → ℝ) {m n d a b : Nat} (X : Matrix (Fin n) (Fin d) ℝ) (r : Fin n → ℝ) (δ : ℝ) {w : List ℝ}
    {hp : SpHyper a b} (ha : a = m) (hb : b = d) (hu : unpack w a b = some hp) :
    matOf hp.xb = matOf (vecIn llt m X r δ w).xb ∧ (List.finRange b).map hp.b = (List.finRange d).map (vecIn llt m X r δ w).b
      ∧ hp.c = (vecIn llt m X r δ w).c ∧ hp.sig = (vecIn llt m X r δ w).sig := by
  subst ha
  subst hb
  obtain ⟨-, rfl⟩ := unpack_eq hu
  exact ⟨rfl, rfl, rfl, rfl⟩

/-- An object after a fit and `optimize_hyperparams`. -/
theorem optimize_history {s : Start} {ops : List Op} {op : Op} {perm : Nat → Nat} {st st' : SpState E} {xs ys : List (List ℝ)} (hl : LltContract E.llt)
    (hj : 0 < E.P.jitter) (hop : op.refits = true) (h : make E s >>= (run · (ops ++ [op])) = .ok st) (hD : held s (ops ++ [op]) = (xs, ys))
    (hx : ∀ x ∈ xs, x ≠ []) (h' : optimizeHyperparams perm st = .ok st') :
    ∃ (d m : Nat) (w0 w w0' w' : List ℝ) (st1 st1' sa : SpState E),
      DataSet xs ys d 1 ∧ m = spCount E.P.samplesPercent E.P.minM xs.length
      ∧ E.hpOpt (likelihood st1) w0 false = .ok w ∧ E.hpOpt (likelihood st1') w0' false = .ok w'
      ∧ Predicts st (SpModel.ofVec m (spInputs xs.length d xs) E.P.jitter w) (spPriorMean E.M ys) (spResid E.M xs.length xs ys)
      ∧ pseudoSamplesOf st' = List.ofFn (fun i => List.ofFn ((SpModel.ofVec m (spInputs xs.length d xs) E.P.jitter w').U i))
      ∧ (∀ v : List ℝ, v.length = d → ∃ σ2, query st' v = .ok (spPriorMean E.M ys v
        + (SpModel.ofVec m (spInputs xs.length d xs) E.P.jitter w').ku (fun a => v.getD a 0)
        ⬝ᵥ ((SpModel.ofVec m (spInputs xs.length d xs) E.P.jitter w).QM⁻¹ *ᵥ ((SpModel.ofVec m (spInputs xs.length d xs) E.P.jitter w).Kun
          *ᵥ ((diagonal (SpModel.ofVec m (spInputs xs.length d xs) E.P.jitter w).lam)⁻¹ *ᵥ spResid E.M xs.length xs ys))), σ2))
      ∧ Holds sa xs ys d 1 ∧ startVector (updateM sa) op.perm = .ok w0
      ∧ Holds st xs ys d 1 ∧ startVector (updateM st) perm = .ok w0' := by
  obtain ⟨d, w0, w, st0, st1, hDS, hh, hh0, hst, hh1, hm, -, hw, -, hf⟩ := history hl hj hop h hD hx
  have hkeep := optimizeHp_keeps h'
  have h'2 : optimizeHp perm { st with optimizeInit := true } = .ok st' := h'
  have hsame := optimizeHp_same rfl h'2
  obtain ⟨w0', w', st1', hp, hw0', hs', hm', hw', hu, e⟩ := optimizeHp_ok rfl h'2
  have hm2 : st1'.m = spCount E.P.samplesPercent E.P.minM xs.length := by
    rw [hm', ← pseudoCount_eq, ← hh.srows]
  have hd2 : st1'.dimIn.toNat = d := by
    rw [hs'.dimIn]
    change st.dimIn.toNat = d
    rw [hh.dimIn]
    rfl
  rw [pseudoCount_eq] at hf
  have hh' : Holds st' xs ys d 1 := 
    (hh.same (b := { st with optimizeInit := true }) ⟨rfl, rfl, rfl, rfl, rfl, rfl, rfl, rfl⟩).same hsame
  obtain ⟨u1, u2, u3, -⟩ := unpack_fields E.llt (spInputs xs.length d xs) (spResid E.M xs.length xs ys) E.P.jitter hm2 hd2 hu
  have f1 : st'.pseudo = matOf hp.xb := by rw [e]
  have f2 : st'.b = (List.finRange st1'.dimIn.toNat).map hp.b := by rw [e]
  have f3 : st'.c = hp.c := by rw [e]
  refine ⟨d, _, w0, w, w0', w', st1, st1', st0, hDS, rfl, hw, hw', fitted_predicts hl hj hDS hh hf, ?_, fun v hv => ?_, hh0, hst, hh, hw0'⟩
  · rw [pseudoSamplesOf, f1, u1]
    exact toVector_matOf _
  · have hs : st'.samples.rows ≠ 0 := by
      rw [hh'.srows]
      exact fun e => hh'.ne (List.length_eq_zero_iff.mp e)
    obtain ⟨σ2, hq⟩ := query_stale (st := st') hl hj (f1.trans u1) (f2.trans u2) (f3.trans u3) (hkeep.1.trans hf.L) (hkeep.2.1.trans hf.Lm)
      (hkeep.2.2.trans hf.bet) hs (by rw [hh'.dimOut]; rfl) hv
    exact ⟨σ2, by rw [hq, hh'.mean_eq hDS.din_pos]⟩

/-- **C84** `optimize_hyperparams()` alone leaves the object between two fits: `pseudo_samples` tells the new pseudo-inputs, but `query` multiplies the
covariances with the new pseudo-inputs with the weights of the last `compute`, `add_sample` or `recompute`. -/
theorem C84_spgp_optimize_stale {s : Start} {ops : List Op} {op : Op} {perm : Nat → Nat} {st st' : SpState E} {xs ys : List (List ℝ)} (hl : LltContract E.llt)
    (hj : 0 < E.P.jitter) (hop : op.refits = true) (h : make E s >>= (run · (ops ++ [op])) = .ok st) (hD : held s (ops ++ [op]) = (xs, ys))
    (hx : ∀ x ∈ xs, x ≠ []) (h' : optimizeHyperparams perm st = .ok st') :
    ∃ (d m : Nat) (obj obj' : List ℝ → Bool → Option (ℝ × Option (List ℝ))) (start w start' w' : List ℝ) (S S' : SpModel m xs.length d),
      DataSet xs ys d 1 ∧ m = spCount E.P.samplesPercent E.P.minM xs.length
      ∧ E.hpOpt obj start false = .ok w ∧ S = SpModel.ofVec m (spInputs xs.length d xs) E.P.jitter w
      ∧ E.hpOpt obj' start' false = .ok w' ∧ S' = SpModel.ofVec m (spInputs xs.length d xs) E.P.jitter w'
      ∧ Predicts st S (spPriorMean E.M ys) (spResid E.M xs.length xs ys)
      ∧ pseudoSamplesOf st' = List.ofFn (fun i => List.ofFn (S'.U i))
      ∧ ∀ v : List ℝ, v.length = d → ∃ σ2, query st' v = .ok (spPriorMean E.M ys v + S'.ku (fun a => v.getD a 0)
        ⬝ᵥ (S.QM⁻¹ *ᵥ (S.Kun *ᵥ ((diagonal S.lam)⁻¹ *ᵥ spResid E.M xs.length xs ys))), σ2) := by
  obtain ⟨d, m, w0, w, w0', w', st1, st1', sa, hDS, hmm, hw, hw', hp, hps, hq, -⟩ := optimize_history hl hj hop h hD hx h'
  exact ⟨d, m, _, _, w0, w, w0', w', _, _, hDS, hmm, hw, rfl, hw', rfl, hp, hps, hq⟩

/-! ### Concrete cases -/

/-- 10 % of the samples but at least `k` as pseudo-inputs; an "optimizer" that returns its start. -/
noncomputable def exSp (k : Nat) : SpEnv :=
  ⟨expKernel 1 1, ⟨1 / 100, false⟩, nullMean, ⟨1 / 1000000, 10, k, 1, 1, 1⟩, llt_contract_satisfiable.choose, fun _ w0 _ => .ok w0⟩

theorem exSp_llt (k : Nat) : LltContract (exSp k).llt := llt_contract_satisfiable.choose_spec

theorem exSp_jitter (k : Nat) : 0 < (exSp k).P.jitter := by
  change (0 : ℝ) < 1 / 1000000
  norm_num

theorem exSp_count {k n : Nat} (hn : n < 10) : spCount (exSp k).P.samplesPercent (exSp k).P.minM n = k := by
  change max k ⌊(10 : ℝ) * n / 100⌋₊ = k
  have : ⌊(10 : ℝ) * n / 100⌋₊ = 0 := by
    rw [Nat.floor_eq_zero]
    have : (n : ℝ) < 10 := by exact_mod_cast hn
    linarith
  rw [this]
  exact max_eq_left (Nat.zero_le _)

theorem exSp_mean (k : Nat) (ys : List (List ℝ)) (v : List ℝ) : spPriorMean (exSp k).M ys v = 0 := rfl

/-- Two samples, given with `compute`. -/
noncomputable def exOp (f : Nat → Nat) : Op := .compute [[0], [1]] [[-(1 / 2)], [1 / 2]] f

theorem exData (f : Nat → Nat) : held (.default (0, 0, 0)) ([] ++ [exOp f]) = ([[0], [1]], [[-(1 / 2)], [1 / 2]]) := rfl

theorem exRun (f : Nat → Nat) : ∃ st, make (exSp 1) (.default (0, 0, 0)) >>= (run · ([] ++ [exOp f])) = .ok st := by
  rw [C82_spgp_returns (E := exSp 1) (d := 1) (st0 := new (exSp 1) (0, 0, 0)) rfl (exData f) (by constructor <;> simp) fun obj w0 => ⟨w0, rfl, le_rfl⟩]
  refine ⟨by rw [exSp_count (by simp)]; simp, fun k hk => ⟨[0], by simp, [1], by simp, ?_⟩, ⟨0, by simp⟩, ?_⟩
  · have : k = 0 := by omega
    subst this
    simp
  · rw [exSp_mean]
    simp

/-- A third one, given with `add_sample`. -/
theorem exData3 : held (.default (0, 0, 0)) ([exOp id] ++ [.add [3] [2] id]) = ([[0], [1], [3]], [[-(1 / 2)], [1 / 2], [2]]) := rfl

theorem exRun3 : ∃ st, make (exSp 1) (.default (0, 0, 0)) >>= (run · ([exOp id] ++ [.add [3] [2] id])) = .ok st := by
  obtain ⟨st, h⟩ := exRun id
  rw [C82_spgp_returns (E := exSp 1) (ops := [exOp id]) (d := 1) h exData3 (by constructor <;> simp) fun obj w0 => ⟨w0, rfl, le_rfl⟩]
  refine ⟨by rw [exSp_count (by simp)]; simp, fun k hk => ⟨[0], by simp, [1], by simp, ?_⟩, ⟨2, by simp⟩, ?_⟩
  · have : k = 0 := by omega
    subst this
    simp
  · rw [exSp_mean]
    simp

-- C77, C78, C79: the hypotheses hold after `compute` with two samples and `add_sample` (three samples, one pseudo-input: an even difference).
example := C77_spgp_predictions (exSp_llt 1) (exSp_jitter 1) (op := .add [3] [2] id) rfl exRun3.choose_spec exData3 (by simp)
example := C77_spgp_batch (exSp_llt 1) (exSp_jitter 1) (op := .add [3] [2] id) rfl exRun3.choose_spec exData3 (by simp) (vs := [[0], [5]])
  (xt := ⟨2, 1, fun i _ => if i = 0 then 0 else 5⟩) rfl (by simp) (by
    intro i hi j hj
    have hi' : i < 2 := hi
    have hj' : j < 1 := hj
    interval_cases i <;> interval_cases j <;> simp) (by simp)
example := C78_spgp_objective (exSp_llt 1) (exSp_jitter 1) (op := .add [3] [2] id) rfl exRun3.choose_spec exData3 (by simp) (by simp)
example := C79_spgp_gradient (exSp_llt 1) (exSp_jitter 1) (op := .add [3] [2] id) rfl exRun3.choose_spec exData3 (by simp)
-- C79 (odd difference): after `compute` with two samples.
example := C79_spgp_gradient_odd (exSp_llt 1) (exSp_jitter 1) (op := exOp id) rfl (exRun id).choose_spec (exData id) (by simp) (by simp)
  (by rw [exSp_count (by simp)]; simp)
-- C80, C81, C83
example := C80_spgp_samples exRun3.choose_spec exData3
example := C81_spgp_start (exSp_llt 1) (exSp_jitter 1) (op := .add [3] [2] id) rfl exRun3.choose_spec exData3 (by simp)
example := C83_spgp_sigma (exSp_llt 1) (exSp_jitter 1) (op := .add [3] [2] id) rfl exRun3.choose_spec exData3 (by simp)
-- C82 (one output): a call with two outputs.
example := fun st => C82_spgp_one_output (E := exSp 1) (s := .default (0, 0, 0)) (ops := []) (op := .compute [[0], [1]] [[0, 1], [1, 0]] id)
  (xs := [[0], [1]]) (ys := [[0, 1], [1, 0]]) (exSp_llt 1) (exSp_jitter 1) rfl rfl (by simp) (y := [0, 1]) (by simp) (by simp) st
-- C82 (`add_sample` alone).
example := fun st => C82_spgp_add_only (E := exSp 1) (s := .dims 0 1 1) (ops := [.add [0] [1] id, .add [1] [2] id]) (by simp) (by simp) (by simp)
  (by simp [held, heldStart, heldStep]) st
-- C83 (constructor with data).
example : ∃ st, make (exSp 1) (.data (0, 0, 0) [[0], [1]] [[0], [1]]) = .ok st ∧ query st [1] = .error .ub := by
  have : ∃ st, make (exSp 1) (.data (0, 0, 0) [[0], [1]] [[0], [1]]) = .ok st := by
    change ∃ st, newData (exSp 1) _ _ _ = .ok st
    unfold newData
    refine bind_ex (a := ⟨2, 1, fun i j => at' (([[0], [1]] : List (List ℝ)).getD i []) j⟩) ?_ (bind_ex (a := ⟨2, 1, fun i j => at' (([[0], [1]] : List (List ℝ)).getD i []) j⟩) ?_ ?_)
    · simp [toMatrix]
    · simp [toMatrix]
    · unfold init computeObservationsZm
      simp only [le_refl, if_true]
      exact ⟨_, rfl⟩
  obtain ⟨st, h⟩ := this
  exact ⟨st, h, C83_spgp_not_computed h (by simp)⟩

/-- **C81** (finding) With two pseudo-inputs of two coordinates the initial pseudo-inputs are not a selection of the samples: the optimizer that returns its start
leaves the object with a pseudo-input that is none of the samples (although the shuffle selects both samples). -/
theorem C81_spgp_start_not_samples :
    ∃ st, make (exSp 2) (.default (0, 0, 0)) >>= (run · ([] ++ [.compute [[0, 1], [2, 4]] [[-(1 / 2)], [1 / 2]] id])) = .ok st
      ∧ [0, 2] ∈ pseudoSamplesOf st ∧ ([0, 2] : List ℝ) ∉ samplesOf st := by
  have h : ∃ st, make (exSp 2) (.default (0, 0, 0)) >>= (run · ([] ++ [.compute [[0, 1], [2, 4]] [[-(1 / 2)], [1 / 2]] id])) = .ok st := by
    rw [C82_spgp_returns (E := exSp 2) (xs := [[0, 1], [2, 4]]) (ys := [[-(1 / 2)], [1 / 2]]) (d := 2) (st0 := new (exSp 2) (0, 0, 0)) rfl rfl (by constructor <;> simp) fun obj w0 => ⟨w0, rfl, le_rfl⟩]
    refine ⟨by rw [exSp_count (by simp)]; simp, fun k hk => ⟨[0, 1], by simp, [2, 4], by simp, ?_⟩, ⟨0, by simp⟩, ?_⟩
    · interval_cases k <;> simp
    · rw [exSp_mean]
      simp
  obtain ⟨st, h⟩ := h
  obtain ⟨d, w0, w, st0, st1, hDS, hh, hh0, hst, hh1, hm, hdel, hw, -, hf⟩ := history (xs := [[0, 1], [2, 4]]) (ys := [[-(1 / 2)], [1 / 2]])
    (op := .compute [[0, 1], [2, 4]] [[-(1 / 2)], [1 / 2]] id) (exSp_llt 2) (exSp_jitter 2) rfl h rfl (by simp)
  have hd : d = 2 := (hDS.inputs [0, 1] (by simp)).symm
  subst hd
  have hww : w0 = w := Except.ok.inj hw
  subst hww
  have hc : 2 = spCount (exSp 2).P.samplesPercent (exSp 2).P.minM ([[0, 1], [2, 4]] : List (List ℝ)).length := (exSp_count (by simp)).symm
  obtain ⟨-, -, -, -, h5, -⟩ := start_spec (exSp 2).P.jitter hDS hh0 hst hc rfl
  refine ⟨st, h, ?_, ?_⟩
  · rw [pseudoCount_eq, ← hc] at hf
    have hps : pseudoSamplesOf st = List.ofFn fun i : Fin 2 => List.ofFn fun a : Fin 2 => w0.getD (a * 2 + i) 0 := by
      rw [pseudoSamplesOf, hf.pseudo]
      exact toVector_matOf _
    have a0 : w0.getD 0 0 = 0 := h5 0 (by simp [Op.perm]) 0
    have a1 : w0.getD 2 0 = 2 := h5 1 (by simp [Op.perm]) 0
    rw [hps]
    refine (List.mem_ofFn ..).mpr ⟨0, ?_⟩
    rw [List.ofFn_succ, List.ofFn_succ, List.ofFn_zero]
    exact congrArg₂ (fun x y => [x, y]) a0 a1
  · rw [(C80_spgp_samples (xs := [[0, 1], [2, 4]]) (ys := [[-(1 / 2)], [1 / 2]]) h rfl).1]
    simp

-- C84: the hypotheses hold after `compute` and `optimize_hyperparams`.
theorem exStale (f : Nat → Nat) {st : SpState (exSp 1)} (h : make (exSp 1) (.default (0, 0, 0)) >>= (run · ([] ++ [exOp f])) = .ok st) (g : Nat → Nat) :
    ∃ st', optimizeHyperparams g st = .ok st' := by
  have : ∃ st', make (exSp 1) (.default (0, 0, 0)) >>= (run · (([] ++ [exOp f]) ++ [.optimizeHyperparams g])) = .ok st' := by
    rw [C82_spgp_returns (E := exSp 1) (xs := [[0], [1]]) (ys := [[-(1 / 2)], [1 / 2]]) (d := 1) h rfl (by constructor <;> simp) fun obj w0 => ⟨w0, rfl, le_rfl⟩]
    refine ⟨by rw [exSp_count (by simp)]; simp, fun k hk => ⟨[0], by simp, [1], by simp, ?_⟩, ⟨0, by simp⟩, ?_⟩
    · have : k = 0 := by omega
      subst this
      simp
    · rw [exSp_mean]
      simp
  obtain ⟨st', h'⟩ := this
  obtain ⟨sa, ha, h'⟩ := SpRes.bind_ok h'
  obtain ⟨sb, hb, h'⟩ := run_append h'
  have : st = sb := by
    rw [ha] at h
    exact Except.ok.inj (h.symm.trans hb)
  subst this
  exact ⟨st', h'⟩

example := C84_spgp_optimize_stale (exSp_llt 1) (exSp_jitter 1) (op := exOp id) rfl (exRun id).choose_spec (exData id) (by simp)
  (exStale id (exRun id).choose_spec (fun i => 1 - i)).choose_spec

/-- **C84** (finding) The mean after `optimize_hyperparams()` can have the wrong sign: the samples are `0` and `1` with observations `∓½`; the shuffle of `compute`
selects the first sample as pseudo-input, that of `optimize_hyperparams` the second.  Afterwards `pseudo_samples` is `[1]` and the sparse process with
the hyper-parameters `w'` has a positive mean at `1`, but `query` returns a negative one. -/
theorem C84_spgp_optimize_wrong_sign :
    ∃ (st st' : SpState (exSp 1)) (obj : List ℝ → Bool → Option (ℝ × Option (List ℝ))) (start w' : List ℝ) (μ σ2 : ℝ),
      make (exSp 1) (.default (0, 0, 0)) >>= (run · ([] ++ [exOp id])) = .ok st ∧ optimizeHyperparams (fun i => 1 - i) st = .ok st'
      ∧ (exSp 1).hpOpt obj start false = .ok w' ∧ pseudoSamplesOf st' = [[1]] ∧ query st' [1] = .ok (μ, σ2) ∧ μ < 0
      ∧ 0 < (SpModel.ofVec 1 (spInputs 2 1 [[0], [1]]) (exSp 1).P.jitter w').mean ![-(1 / 2), 1 / 2] (fun _ => 1) := by
  obtain ⟨st, h⟩ := exRun id
  obtain ⟨st', h'⟩ := exStale id h (fun i => 1 - i)
  obtain ⟨d, m, w0, w, w0', w', st1, st1', sa, hDS, hmm, hw, hw', hp, hps, hq, hh0, hs0, hh1, hs1⟩ :=
    optimize_history (exSp_llt 1) (exSp_jitter 1) (op := exOp id) rfl h (exData id) (by simp) h'
  have hd : d = 1 := (hDS.inputs [0] (by simp)).symm
  subst hd
  rw [exSp_count (by simp)] at hmm
  subst hmm
  have hww : w0 = w := Except.ok.inj hw
  subst hww
  have hww' : w0' = w' := Except.ok.inj hw'
  subst hww'
  have hc : 1 = spCount (exSp 1).P.samplesPercent (exSp 1).P.minM ([[0], [1]] : List (List ℝ)).length := (exSp_count (by simp)).symm
  obtain ⟨-, -, -, -, -, u0⟩ := start_spec (exSp 1).P.jitter hDS hh0 hs0 hc rfl
  obtain ⟨-, -, -, -, -, u1⟩ := start_spec (exSp 1).P.jitter hDS hh1 hs1 hc rfl
  have U0 := u0 (.inl rfl) 0 (by simp [Op.perm, exOp]) 0
  have U1 := u1 (.inl rfl) 0 (by simp) 0
  have hr : spResid (exSp 1).M 2 [[0], [1]] [[-(1 / 2)], [1 / 2]] = ![-(1 / 2), 1 / 2] := by
    funext i
    have e : spResid (exSp 1).M 2 [[0], [1]] [[-(1 / 2)], [1 / 2]] i = (([[-(1 / 2)], [1 / 2]] : List (List ℝ)).getD i []).getD 0 0 - 0 := rfl
    rw [e]
    fin_cases i <;> simp
  obtain ⟨σ2, hq1⟩ := hq [1] rfl
  have g0 := ofVec_good (m := 1) (spInputs 2 1 [[0], [1]]) (exSp_jitter 1) w0
  have g1 := ofVec_good (m := 1) (spInputs 2 1 [[0], [1]]) (exSp_jitter 1) w0'
  have x0 : spInputs 2 1 [[0], [1]] 0 0 = 0 := rfl
  have x1 : spInputs 2 1 [[0], [1]] 1 0 = 1 := rfl
  have U0' : (SpModel.ofVec 1 (spInputs 2 1 [[0], [1]]) (exSp 1).P.jitter w0).U 0 0 = 0 := U0
  have U1' : (SpModel.ofVec 1 (spInputs 2 1 [[0], [1]]) (exSp 1).P.jitter w0').U 0 0 = 1 := U1
  refine ⟨st, st', likelihood st1', w0', w0', _, σ2, h, h', rfl, ?_, hq1, ?_, ?_⟩
  · rw [hps]
    change [[(SpModel.ofVec 1 (spInputs 2 1 [[0], [1]]) (exSp 1).P.jitter w0').U 0 0]] = _
    rw [U1']
  · rw [exSp_mean, zero_add]
    refine (SpModel.weight_sign g0 _ (mul_pos g1.c (Real.exp_pos _)) (a := 1 / 2) ?_ ?_ (by norm_num)).1 ?_ ?_
    · exact congrFun hr 0
    · exact congrFun hr 1
    · exact x0.trans U0'.symm
    · intro e
      exact one_ne_zero ((x1.symm.trans e).trans U0')
  · refine (SpModel.weight_sign g1 _ (mul_pos g1.c (Real.exp_pos _)) (a := 1 / 2) rfl rfl (by norm_num)).2 ?_ ?_
    · exact x1.trans U1'.symm
    · intro e
      exact zero_ne_one ((x0.symm.trans e).trans U1')

end Limbo.Spgp
