import Verif.Lemmas.BoRel
import Verif.Lemmas.HpOpt
import Verif.Spec.BoGp
import Verif.Props.Gp

/-! `BOptimizer` with a GP: the GP operations keep "holds the data `d` and is up to date". -/

namespace Limbo

open Gp

variable {E : GpEnv}

theorem reals?_eq {v : List XR} {x : List ℝ} (h : reals? v = some x) : v = x.map XR.fin := by
  induction v generalizing x with
  | nil => simp only [reals?, Option.some.injEq] at h; subst h; rfl
  | cons a l ih =>
    cases a with
    | fin r =>
      simp only [reals?, Option.map_eq_some_iff] at h
      obtain ⟨y, h1, rfl⟩ := h
      rw [ih h1]; rfl
    | nan => simp [reals?] at h
    | ninf => simp [reals?] at h
    | pinf => simp [reals?] at h

theorem realsL?_eq {v : List (List XR)} {x : List (List ℝ)} (h : realsL? v = some x) : v = x.map (List.map XR.fin) := by
  induction v generalizing x with
  | nil => simp only [realsL?, Option.some.injEq] at h; subst h; rfl
  | cons a l ih =>
    simp only [realsL?] at h
    rw [Option.bind_eq_some_iff] at h
    obtain ⟨y, h1, h⟩ := h
    rw [Option.map_eq_some_iff] at h
    obtain ⟨z, h2, rfl⟩ := h
    rw [ih h2, reals?_eq h1]; rfl

theorem realsL?_map (l : List (List ℝ)) : realsL? (l.map (List.map XR.fin)) = some l := by
  induction l with
  | nil => rfl
  | cons a l ih => simp only [List.map_cons, realsL?, reals?_map, ih, Option.bind_some, Option.map_some]

theorem zip_finPairs (xs ys : List (List ℝ)) : (xs.map (List.map XR.fin)).zip (ys.map (List.map XR.fin)) = finPairs xs ys := by
  unfold finPairs; rw [List.zip_map]; rfl

theorem finPairs_snoc {xs ys : List (List ℝ)} (h : xs.length = ys.length) (x y : List ℝ) :
    finPairs (xs ++ [x]) (ys ++ [y]) = finPairs xs ys ++ [(x.map XR.fin, y.map XR.fin)] := by
  unfold finPairs; rw [List.zip_append h]; simp

theorem finPairs_inj {xs ys xs' ys' : List (List ℝ)} (h : xs.length = ys.length) (h' : xs'.length = ys'.length)
    (e : finPairs xs ys = finPairs xs' ys') : xs = xs' ∧ ys = ys' := by
  have hi : Function.Injective (fun p : List ℝ × List ℝ => (p.1.map XR.fin, p.2.map XR.fin)) := by
    have hf : Function.Injective XR.fin := fun a b h => Xt.fin.inj h
    rintro ⟨a, b⟩ ⟨c, d⟩ h
    simp only [Prod.mk.injEq] at h
    rw [List.map_injective_iff.2 hf h.1, List.map_injective_iff.2 hf h.2]
  have := List.map_injective_iff.2 hi e
  have h1 := congrArg (List.map Prod.fst) this
  have h2 := congrArg (List.map Prod.snd) this
  rw [List.map_fst_zip h.le, List.map_fst_zip h'.le] at h1
  rw [List.map_snd_zip h.ge, List.map_snd_zip h'.ge] at h2
  exact ⟨h1, h2⟩

/-- the GP was obtained by calls, holds `d`, and everything is up to date -/
def GpRel (g : GpState E) (d : List (List XR × List XR)) : Prop :=
  ∃ xs ys, xs.length = ys.length ∧ d = finPairs xs ys ∧ GpReach E ⟨xs, ys, true, true, true, true⟩ g

theorem hp_reach_kernel {xs ys : List (List ℝ)} {s u : GpState E} (h : GpReach E ⟨xs, ys, true, true, true, true⟩ s) {j : Nat → Nat → ℝ} {q : List ℝ}
    (hu : updKernel s j q = some u) : GpReach E ⟨xs, ys, true, true, true, true⟩ u := by
  unfold updKernel at hu
  split at hu
  · next hq =>
    have h1 := h.step (op := .setKernelParams q) (junk := j) trivial (t := setKernelParams s q) (by simp [step, hq])
    have h2 := h1.step (op := .recompute false true) (junk := j) trivial hu
    simpa [GpAbs.step] using h2
  · cases hu

theorem hp_reach_mean {xs ys : List (List ℝ)} {s u : GpState E} (h : GpReach E ⟨xs, ys, true, true, true, true⟩ s) {j : Nat → Nat → ℝ} {q : List ℝ}
    (hu : updMean s j q = some u) : GpReach E ⟨xs, ys, true, true, true, true⟩ u := by
  unfold updMean at hu
  split at hu
  · next hq =>
    have h1 := h.step (op := .setMeanParams q) (junk := j) trivial (t := setMeanParams s q) (by simp [step, hq])
    have h2 := h1.step (op := .recompute true false) (junk := j) trivial hu
    simpa [GpAbs.step] using h2
  · cases hu

theorem hp_reach_both {xs ys : List (List ℝ)} {s u : GpState E} (h : GpReach E ⟨xs, ys, true, true, true, true⟩ s) {j : Nat → Nat → ℝ} {q : List ℝ}
    (hu : updBoth s j q = some u) : GpReach E ⟨xs, ys, true, true, true, true⟩ u := by
  unfold updBoth at hu
  simp only at hu
  split at hu
  · next hq =>
    have h1 := h.step (op := .setKernelParams (q.take (s.kf.hParamsSize E.KP))) (junk := j) trivial
      (t := setKernelParams s (q.take (s.kf.hParamsSize E.KP))) (by simp [step, hq.1])
    have h2 := h1.step (op := .setMeanParams (q.drop (q.length - E.M.hSize s.mf))) (junk := j) trivial
      (t := setMeanParams (setKernelParams s (q.take (s.kf.hParamsSize E.KP))) (q.drop (q.length - E.M.hSize s.mf))) (by
        simp only [step]; rw [if_pos]
        show E.M.hSize s.mf ≤ _
        rw [List.length_drop]; omega)
    have h3 := h2.step (op := .recompute true true) (junk := j) trivial hu
    simpa [GpAbs.step] using h3
  · cases hu

theorem hp_reach_lik {xs ys : List (List ℝ)} {s : GpState E} {r : GpState E × ℝ} (h : GpReach E ⟨xs, ys, true, true, true, true⟩ s)
    (hr : computeLogLik s = some r) : GpReach E ⟨xs, ys, true, true, true, true⟩ r.1 :=
  h.step (op := .computeLogLik) (junk := fun _ _ => 0) trivial (by simp [step, hr])

theorem hp_reach_loo {xs ys : List (List ℝ)} {s : GpState E} {r : GpState E × ℝ} (h : GpReach E ⟨xs, ys, true, true, true, true⟩ s)
    (hr : computeLogLoo s = some r) : GpReach E ⟨xs, ys, true, true, true, true⟩ r.1 :=
  h.step (op := .computeLogLoo) (junk := fun _ _ => 0) trivial (by simp [step, hr])

theorem HpFunctor.reach (hp : HpFunctor E) {xs ys : List (List ℝ)} {s s' : GpState E} (h : GpReach E ⟨xs, ys, true, true, true, true⟩ s)
    (hr : hp.run s = some s') : GpReach E ⟨xs, ys, true, true, true, true⟩ s' := by
  cases hp with
  | none => cases hr
  | kernelLF O J j =>
    obtain ⟨q, u, r, h1, h2, rfl⟩ := hpRun_inv hr
    exact hp_reach_lik (hp_reach_kernel h h1) h2
  | kernelLoo O J j =>
    obtain ⟨q, u, r, h1, h2, rfl⟩ := hpRun_inv hr
    exact hp_reach_loo (hp_reach_kernel h h1) h2
  | meanLF O J j =>
    simp only [HpFunctor.run, meanLFOpt] at hr
    rw [Option.bind_eq_some_iff] at hr
    obtain ⟨s0, -, hr⟩ := hr
    obtain ⟨q, u, r, h1, h2, rfl⟩ := hpRun_inv hr
    exact hp_reach_lik (hp_reach_mean h h1) h2
  | kernelMeanLF O J j =>
    obtain ⟨q, u, r, h1, h2, rfl⟩ := hpRun_inv hr
    exact hp_reach_lik (hp_reach_both h h1) h2

theorem gpRes_ok {o : Option (GpState E)} {s : GpState E} (h : gpRes o = .ok s) : o = some s := by
  cases o with
  | none => cases h
  | some a => simp only [gpRes, Res.ok.injEq] at h; rw [h]

theorem gpRes_throw {o : Option (GpState E)} {e : Exn} {s : GpState E} (h : gpRes o = .throw e s) : False := by
  cases o <;> cases h

theorem gpOps_lawful (u : Nat → Nat → ℝ × ℝ) (junkC : List (List ℝ) → List (List ℝ) → GpState E → Nat → Nat → ℝ)
    (junkA : List ℝ → List ℝ → GpState E → Nat → Nat → ℝ) (hp : HpFunctor E) : LawfulRel (gpOps E u junkC junkA hp) GpRel where
  fresh i o := ⟨[], [], rfl, rfl, GpReach.newDims (u i o) i o⟩
  compute s v m d m' hR hl h := by
    obtain ⟨xs, ys, -, -, hr⟩ := hR
    have h := gpRes_ok h
    rw [Option.bind_eq_some_iff] at h
    obtain ⟨xs', h1, h⟩ := h
    rw [Option.bind_eq_some_iff] at h
    obtain ⟨ys', h2, h⟩ := h
    have e1 := realsL?_eq h1
    have e2 := realsL?_eq h2
    refine ⟨xs', ys', ?_, by rw [e1, e2, zip_finPairs], hr.step (op := .compute xs' ys' true) trivial h⟩
    rw [e1, e2] at hl; simpa using hl
  addSample s v m d m' hR h := by
    obtain ⟨xs, ys, hlen, rfl, hr⟩ := hR
    have h := gpRes_ok h
    rw [Option.bind_eq_some_iff] at h
    obtain ⟨x, h1, h⟩ := h
    rw [Option.bind_eq_some_iff] at h
    obtain ⟨y, h2, h⟩ := h
    refine ⟨xs ++ [x], ys ++ [y], by simp [hlen], by rw [finPairs_snoc hlen, reals?_eq h1, reals?_eq h2], hr.step (op := .add x y) trivial h⟩
  optHp m d m' hR h := by
    obtain ⟨xs, ys, hlen, rfl, hr⟩ := hR
    exact ⟨xs, ys, hlen, rfl, hp.reach hr (gpRes_ok h)⟩
  computeThrow s v m d e m' _ h := (gpRes_throw h).elim
  addThrow s v m d e m' _ h := (gpRes_throw h).elim
  hpThrow m d e m' _ h := (gpRes_throw h).elim

theorem GpRel.fits (hE : LawfulEnv E) {g : GpState E} {d : List (List XR × List XR)} (h : GpRel g d) : GpFits g d := by
  obtain ⟨xs, ys, hlen, rfl, hr⟩ := h
  obtain ⟨h1, h2⟩ := C65_data hE hr
  refine ⟨xs, ys, hlen, rfl, h1, h2, fun hx v => C28_empty_is_prior hE hr hx v, fun hx => ?_⟩
  have T := hr.tracks hE
  obtain ⟨din, dout, hh⟩ := T.ne hx
  refine ⟨din, dout, hh.data, ?_, ?_, fun v => ?_⟩
  · rcases T.reach.1 with h | h
    · rw [hh.dimIn] at h; omega
    · rw [hh.dimIn] at h; exact h
  · rcases T.reach.2 with h | h
    · rw [hh.dimOut] at h; omega
    · rw [hh.dimOut] at h; exact h
  · obtain ⟨m, hm, hm'⟩ := C27_mu_is_posterior_mean hE hr hx rfl hh.data v
    refine ⟨m, ?_, hm'⟩
    rw [C28_query_is_mu_sigma, hm, C27_sigma_is_posterior_variance hE hr hx rfl v]
    rfl

end Limbo
