import Verif.Model.HpOpt
import Verif.Props.GradOpt
import Verif.Props.GpGrad

set_option linter.unusedSectionVars false

namespace Limbo

theorem reals?_map (l : List ℝ) : reals? (l.map XR.fin) = some l := by
  induction l with
  | nil => rfl
  | cons x l ih =>
    show (reals? (l.map XR.fin)).map (x :: ·) = _
    rw [ih]; rfl

theorem AllFin.exists_map {v : List XR} (h : AllFin v) : ∃ l : List ℝ, v = l.map XR.fin := by
  induction v with
  | nil => exact ⟨[], rfl⟩
  | cons x v ih =>
    obtain ⟨r, rfl⟩ := h x (by simp)
    obtain ⟨l, rfl⟩ := ih fun y hy => h y (by simp [hy])
    exact ⟨r :: l, rfl⟩

theorem allFin_map (l : List ℝ) : AllFin (l.map XR.fin) := by
  intro x hx
  obtain ⟨r, -, rfl⟩ := List.mem_map.1 hx
  exact ⟨r, rfl⟩

/-- Without bounds, Rprop stays among real vectors of the dimension of the start and needs the gradient only there. -/
theorem rprop_fin (f : ObjFn XR) (init : List XR) (hinit : AllFin init)
    (hf : ∀ q : List XR, AllFin q → q.length = init.length → ∃ g, (f q true).2 = some g ∧ g.length = init.length)
    (iterations : Int) (epsStop : XR) (he : le (lit 0) epsStop = true) :
    ∃ s, rpropRun f init false iterations epsStop = some s ∧ AllFin s.bestParams ∧ s.bestParams.length = init.length := by
  let I : RpropState XR → Prop := fun s => RpropShape init.length s ∧ (∀ d ∈ s.delta, GoodDelta d) ∧ AllFin s.params ∧
    AllFin s.bestParams ∧ s.bestParams.length = init.length
  have hI : ∀ s s' st, I s → rpropStep f false epsStop s = some (s', st) → I s' := by
    rintro s s' st ⟨hs, hd, hp, hb, hl⟩ hstep
    have hs' := rpropStep_shape hs hstep
    obtain ⟨-, -, -, t4⟩ := rpropStep_fields hstep
    obtain ⟨g, hg, -, e1, e2, -, -⟩ := rpropStep_params hstep
    refine ⟨hs', ?_, ?_, ?_, ?_⟩
    · rw [e2]; intro d hd'
      rw [List.mem_map] at hd'
      obtain ⟨r, hr, rfl⟩ := hd'
      obtain ⟨a, -, x, -, y, hy, z, -, rfl⟩ := mem_rpropCoords _ _ _ _ _ _ hr
      exact rpropCoord_delta _ _ _ _ (hd y hy)
    · rw [e1]; intro x hx
      rw [List.mem_map] at hx
      obtain ⟨r, hr, rfl⟩ := hx
      obtain ⟨a, -, x, -, y, hy, z, hz, rfl⟩ := mem_rpropCoords _ _ _ _ _ _ hr
      obtain ⟨z, rfl⟩ := hp z hz
      have hup := rpropCoord_uphill false a (-x) (hd y hy) (p := z) (by simp)
      rw [XR.neg_neg'] at hup
      obtain ⟨r, hr, -, -⟩ := hup
      exact ⟨r, hr⟩
    · rw [t4]; split_ifs
      · exact hp
      · exact hb
    · rw [t4]; split_ifs
      · exact hs.params
      · exact hl
  have h0 : I (rpropInit init false) := by
    refine ⟨⟨by simp [rpropInit], by simp [rpropInit], by simp [rpropInit, length_clampIf]⟩, ?_, ?_, ?_, ?_⟩
    · intro d hd
      simp only [rpropInit, List.mem_map] at hd
      obtain ⟨_, _, rfl⟩ := hd
      exact goodDelta_init
    · intro x hx; exact hinit x (by simpa [rpropInit, clampIf] using hx)
    · intro x hx; exact hinit x (by simpa [rpropInit, clampIf] using hx)
    · simp [rpropInit, length_clampIf]
  unfold rpropRun
  rw [if_pos he]
  generalize rpropInit init false = s at h0
  generalize iterations.toNat = n
  induction n generalizing s with
  | zero => exact ⟨s, rfl, h0.2.2.2⟩
  | succ n ih =>
    rw [rpropLoop]
    obtain ⟨g, hg, hl⟩ := hf s.params h0.2.2.1 h0.1.params
    have : ∃ s' st, rpropStep f false epsStop s = some (s', st) := by
      unfold rpropStep; simp only [hg, hl, h0.1.params, if_true]; exact ⟨_, _, rfl⟩
    obtain ⟨s', st, hst⟩ := this
    rw [hst]
    have hs' := hI _ _ _ h0 hst
    cases st with
    | true => exact ⟨s', rfl, hs'.2.2.2⟩
    | false => exact ih s' hs'

namespace Gp

variable {E : GpEnv}

/-- Rprop on one of the functors: it succeeds and its result is not worse than the start. -/
theorem hpObj_rprop {upd : List ℝ → Option (GpState E)} {val : GpState E → Option (GpState E × ℝ)} {grad : GpState E → Option (List ℝ)}
    (init : List ℝ) (V : List ℝ → ℝ)
    (hU : ∀ q : List ℝ, q.length = init.length → ∃ u w g, upd q = some u ∧ val u = some (w, V q) ∧ grad w = some g ∧ g.length = init.length)
    {iterations : Int} (hit : 0 < iterations) {epsStop : XR} (he : le (lit 0) epsStop = true) :
    ∃ q : List ℝ, q.length = init.length ∧ rprop iterations epsStop (hpObj upd val grad) (init.map XR.fin) false = some (q.map XR.fin) ∧
      V init ≤ V q := by
  have hobj : ∀ q : List ℝ, q.length = init.length → ∃ g : List ℝ, g.length = init.length ∧
      hpObj upd val grad (q.map XR.fin) true = (XR.fin (V q), some (g.map XR.fin)) := by
    intro q hq
    obtain ⟨u, w, g, h1, h2, h3, h4⟩ := hU q hq
    refine ⟨g, h4, ?_⟩
    unfold hpObj
    rw [reals?_map]
    simp only [h1, Option.bind_some, h2, h3, if_true, Option.map_some]
  obtain ⟨s, hs, hfin, hlen⟩ := rprop_fin (hpObj upd val grad) (init.map XR.fin) (allFin_map init) (by
    intro q hq hl
    obtain ⟨l, rfl⟩ := hq.exists_map
    obtain ⟨g, hg, h⟩ := hobj l (by simpa using hl)
    exact ⟨g.map XR.fin, by rw [h], by simpa using hg⟩) iterations epsStop he
  obtain ⟨q, hq⟩ := hfin.exists_map
  rw [hq, List.length_map, List.length_map] at hlen
  refine ⟨q, hlen, by unfold rprop; rw [hs, Option.map_some, hq], ?_⟩
  obtain ⟨g0, -, h0⟩ := hobj init rfl
  obtain ⟨g1, -, h1⟩ := hobj q hlen
  have := C15_rprop_never_worse_than_start (hpObj upd val grad) (init.map XR.fin) false iterations epsStop s hit
    (by simp only [clampIf, Bool.false_eq_true, if_false]; rw [h0]; rfl) hs
  simp only [clampIf, Bool.false_eq_true, if_false] at this
  rw [h0, hq, h1] at this
  simpa using this

open Finset Matrix

variable {A : GpAbs} {s u s' : GpState E} {din dout : Nat} {xs ys : List (List ℝ)}

/-- the bookkeeping of a fully up-to-date GP -/
abbrev full (xs ys : List (List ℝ)) : GpAbs := ⟨xs, ys, true, true, true, true⟩

theorem full_upToDate (hne : xs ≠ []) : (full xs ys).UpToDate := ⟨hne, rfl, rfl, rfl⟩

theorem lik_tracks (hE : LawfulEnv E) (T : Tracks E (full xs ys) u) {r : GpState E × ℝ} (h : computeLogLik u = some r) :
    Tracks E (full xs ys) r.1 ∧ r.1.kf = u.kf ∧ r.1.mf = u.mf := by
  have := logLik_shape h
  exact ⟨track_step hE (fun _ _ => 0) T (op := .computeLogLik) trivial (by simp [step, h]), by rw [this], by rw [this]⟩

theorem loo_tracks (hE : LawfulEnv E) (T : Tracks E (full xs ys) u) {r : GpState E × ℝ} (h : computeLogLoo u = some r) :
    Tracks E (full xs ys) r.1 ∧ r.1.kf = u.kf ∧ r.1.mf = u.mf := by
  obtain ⟨v, h1, h2⟩ := loo_shape h
  obtain ⟨-, ⟨iv, h3⟩, -⟩ := track_ensureInv T h1
  exact ⟨track_step hE (fun _ _ => 0) T (op := .computeLogLoo) trivial (by simp [step, h]), by rw [h2, h3], by rw [h2, h3]⟩

theorem lik_eval (hE : LawfulEnv E) (T : Tracks E (full xs ys) u) (hd : DataSet xs ys din dout) :
    ∃ w, computeLogLik u = some (w, likOf (toM xs.length (gramN u.kf xs)) dout (resid (meanFn u.mf ys dout) xs ys)) ∧
      Tracks E (full xs ys) w ∧ w.kf = u.kf ∧ w.mf = u.mf := by
  have h := logLik_likOf hE T (full_upToDate hd.nonempty) hd
  rw [Option.map_eq_some_iff] at h
  obtain ⟨⟨w, v⟩, h1, h2⟩ := h
  simp only at h2
  refine ⟨w, by rw [h1, h2], ?_⟩
  exact lik_tracks hE T h1

theorem loo_eval (hE : LawfulEnv E) (T : Tracks E (full xs ys) u) (hd : DataSet xs ys din dout) :
    ∃ w, computeLogLoo u = some (w, looOf (toM xs.length (gramN u.kf xs)) dout (resid (meanFn u.mf ys dout) xs ys)) ∧
      Tracks E (full xs ys) w ∧ w.kf = u.kf ∧ w.mf = u.mf := by
  have h := loo_looOf hE T (full_upToDate hd.nonempty) rfl hd
  rw [Option.map_eq_some_iff] at h
  obtain ⟨⟨w, v⟩, h1, h2⟩ := h
  simp only at h2
  refine ⟨w, by rw [h1, h2], ?_⟩
  exact loo_tracks hE T h1

theorem updKernel_spec (hE : LawfulEnv E) (T : Tracks E A s) (hne : A.xs ≠ []) (hm : A.m = true) (junk : Nat → Nat → ℝ) (p : List ℝ)
    (hp : s.kf.hParamsSize E.KP ≤ p.length) :
    ∃ u, updKernel s junk p = some u ∧ Tracks E (full A.xs A.ys) u ∧ u.kf = s.kf.setHParams E.KP p ∧ u.mf = s.mf := by
  unfold updKernel
  rw [if_pos hp]
  exact setK_recompute hE T hne hm p hp junk

theorem updMean_spec (hE : LawfulEnv E) (T : Tracks E A s) (hne : A.xs ≠ []) (hk : A.k = true) (hi : A.i = true) (junk : Nat → Nat → ℝ) (p : List ℝ)
    (hp : E.M.hSize s.mf ≤ p.length) :
    ∃ u, updMean s junk p = some u ∧ Tracks E (full A.xs A.ys) u ∧ u.kf = s.kf ∧ u.mf = E.M.setH s.mf p := by
  unfold updMean
  rw [if_pos hp]
  exact setM_recompute hE T hne hk hi p hp junk

theorem updBoth_spec (hE : LawfulEnv E) (T : Tracks E A s) (hne : A.xs ≠ []) (junk : Nat → Nat → ℝ) (p : List ℝ)
    (hp : s.kf.hParamsSize E.KP ≤ p.length) (hp' : E.M.hSize s.mf ≤ p.length) :
    ∃ u, updBoth s junk p = some u ∧ Tracks E (full A.xs A.ys) u ∧ u.kf = s.kf.setHParams E.KP (p.take (s.kf.hParamsSize E.KP)) ∧
      u.mf = E.M.setH s.mf (p.drop (p.length - E.M.hSize s.mf)) := by
  unfold updBoth
  simp only
  rw [if_pos ⟨hp, hp'⟩]
  have T1 := track_setK T (p.take (s.kf.hParamsSize E.KP)) (by rw [List.length_take]; omega)
  have T2 := track_setM T1 (p.drop (p.length - E.M.hSize s.mf)) (by
    show E.M.hSize s.mf ≤ _
    rw [List.length_drop]; omega)
  obtain ⟨u, hu⟩ := recompute_progress hE junk T2 (um := true) (uk := true) ⟨hne, Or.inl rfl, Or.inl rfl⟩
  obtain ⟨T3, h1, h2, -, -⟩ := track_recompute hE junk T2 hu
  refine ⟨u, hu, ?_, h1, h2⟩
  have e : ((A.step (.setKernelParams (p.take (s.kf.hParamsSize E.KP)))).step (.setMeanParams (p.drop (p.length - E.M.hSize s.mf)))).step (.recompute true true)
      = full A.xs A.ys := by
    simp [GpAbs.step]
  rw [← e]; exact T3

theorem hParamsSize_set {I : KernelImpl} (hI : StdKernel I) {P : KernelParams} {d : Nat} {k : BaseK I} (hk : KReach I P d k) (p : List ℝ) :
    (k.setHParams P p).hParamsSize P = k.hParamsSize P := by
  unfold BaseK.hParamsSize
  rw [setH_inner, ((std_params hI hk).2.2.1 _).2]

theorem forN_none {α : Type} (n : Nat) (hn : 0 < n) (f : Nat → Option α → Option α) (hf : ∀ i o, f i o = none) (z : Option α) : forN n f z = none := by
  cases n with
  | zero => omega
  | succ n => rw [forN, hf]

/-- a mean function without gradient makes `compute_mean_grad_log_lik()` fail its assertion -/
theorem meanGrad_none {st : GpState E} (hG : ∀ x mo, E.M.grad st.mf x mo = none) (hd : 0 < st.dimOut.toNat) (hn : 0 < st.obsMean.rows) :
    meanGradLogLik st = none := by
  unfold meanGradLogLik
  simp only [Option.bind_eq_bind]
  rw [Option.bind_eq_none_iff]
  intro s' hs'
  have e : s'.mf = st.mf ∧ s'.dimOut = st.dimOut := by
    unfold ensureInv at hs'
    split at hs'
    · cases hs'; exact ⟨rfl, rfl⟩
    · unfold computeInvKernel at hs'
      simp only at hs'
      split at hs'
      · cases hs'; exact ⟨rfl, rfl⟩
      · cases hs'
  split
  · rw [forN_none]
    · rfl
    · rw [e.2]; exact hd
    · intro i o
      refine forN_none _ hn _ ?_ _
      intro a b
      rw [Option.bind_eq_none_iff]
      intro c _
      rw [e.1, hG, Option.bind_none]
  · rfl

theorem rprop_none {f : ObjFn XR} {init : List XR} (h : (f init true).2 = none) {iterations : Int} (hit : 0 < iterations) (epsStop : XR) :
    rprop iterations epsStop f init false = none := by
  unfold rprop rpropRun
  split
  · obtain ⟨n, hn⟩ : ∃ n, iterations.toNat = n + 1 := ⟨iterations.toNat - 1, by omega⟩
    rw [hn, rpropLoop]
    have : rpropStep f false epsStop (rpropInit init false) = none := by
      unfold rpropStep
      have e : (rpropInit init false).params = init := rfl
      simp only [e, h]
    rw [this]; rfl
  · rfl

theorem hpObj_none {upd : List ℝ → Option (GpState E)} {val : GpState E → Option (GpState E × ℝ)} {grad : GpState E → Option (List ℝ)} {init : List ℝ}
    (h : ∀ u r, upd init = some u → val u = some r → grad r.1 = none) : (hpObj upd val grad (init.map XR.fin) true).2 = none := by
  unfold hpObj
  rw [reals?_map]
  simp only
  cases h1 : (upd init).bind val with
  | none => rfl
  | some r =>
    rw [Option.bind_eq_some_iff] at h1
    obtain ⟨u, h2, h3⟩ := h1
    simp only [if_true]
    rw [h u r h2 h3]; rfl

theorem hpRun_inv {O : Optz XR} {obj : ObjFn XR} {init : List ℝ} {upd : List ℝ → Option (GpState E)} {val : GpState E → Option (GpState E × ℝ)}
    (h : hpRun O obj init upd val = some s') : ∃ q u r, upd q = some u ∧ val u = some r ∧ r.1 = s' := by
  unfold hpRun at h
  rw [Option.bind_eq_some_iff] at h
  obtain ⟨p, -, h⟩ := h
  rw [Option.bind_eq_some_iff] at h
  obtain ⟨q, -, h⟩ := h
  rw [Option.bind_eq_some_iff] at h
  obtain ⟨u, hu, h⟩ := h
  rw [Option.map_eq_some_iff] at h
  obtain ⟨r, hr, h⟩ := h
  exact ⟨q, u, r, hu, hr, h⟩

end Gp

end Limbo
