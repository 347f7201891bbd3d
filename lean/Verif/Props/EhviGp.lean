import Verif.Spec.EhviGp
import Verif.Lemmas.BoHonest
import Verif.Props.Multi
import Verif.Props.Ehvi
import Verif.Props.BoAcqui

/-! # C112: EHVI evaluates where the posterior of all data promises the largest hypervolume improvement -/

namespace Limbo

open Gp Ehvi

variable {E : GpEnv}

open Classical in
/-- the data of a GP that is in a state a new GP can get to -/
noncomputable def fixData (g : GpState E) : List (List XR × List XR) := if h : ∃ l, FixRel g l then h.choose else []

theorem FixRel.data_eq (hE : LawfulEnv E) {g : GpState E} {l : List (List XR × List XR)} (h : FixRel g l) : fixData g = l := by
  have hex : ∃ l, FixRel g l := ⟨l, h⟩
  unfold fixData
  rw [dif_pos hex]
  obtain ⟨xs, ys, -, e1, e2, e3, -⟩ := hex.choose_spec.1.fits hE
  obtain ⟨xs', ys', -, e1', e2', e3', -⟩ := h.1.fits hE
  rw [e1, e1', ← e2, ← e3, ← e2', ← e3']

theorem fixData_rel {g : GpState E} {l : List (List XR × List XR)} (h : fixData g = l) (hl : l ≠ []) : FixRel g l := by
  unfold fixData at h
  split at h
  · next hex => rw [← h]; exact hex.choose_spec
  · exact absurd h.symm hl

theorem gp_learns (hE : LawfulEnv E) (u : Nat → Nat → ℝ × ℝ) (junkC : List (List ℝ) → List (List ℝ) → GpState E → Nat → Nat → ℝ)
    (junkA : List ℝ → List ℝ → GpState E → Nat → Nat → ℝ) (hp : HpFunctor E) : LearnsFresh (gpOps E u junkC junkA hp) fixData := by
  intro i s v m hl h
  exact FixRel.data_eq hE ((gpOps_fixed u junkC junkA).compute s v _ _ m ((gpOps_fixed u junkC junkA).fresh i 1) hl h)

/-- what a GP that has learnt one objective predicts -/
theorem obj_predicts (hE : LawfulEnv E) {g : GpState E} {d : Nat} {xs : List (List ℝ)} {ys : List ℝ} (hne : xs ≠ []) (hlen : xs.length = ys.length)
    (h : FixRel g (finPairs xs (ys.map fun y => [y]))) (hd : ∀ x, xs.head? = some x → x.length = d) :
    (∀ x ∈ xs, x.length = d) ∧ ∀ v : List ℝ, gpMu0 g (v.map XR.fin) = XR.fin (objMean E d xs ys v) ∧ gpSigma0 g (v.map XR.fin) = XR.fin (objVar E d xs v) := by
  obtain ⟨hrel, hk, hmf⟩ := h
  have hfit := hrel.fits hE
  obtain ⟨x0, hx0⟩ : ∃ x0, xs.head? = some x0 := ⟨_, List.head?_eq_some_head hne⟩
  obtain ⟨y0, hy0⟩ : ∃ y0, ys[0]? = some y0 := ⟨_, List.getElem?_eq_getElem (by rw [← hlen]; exact List.length_pos_iff.2 hne)⟩
  have hmem : (x0.map XR.fin, [XR.fin y0]) ∈ finPairs xs (ys.map fun y => [y]) := by
    refine List.mem_map.2 ⟨(x0, [y0]), List.mem_of_getElem? (i := 0) (List.getElem?_zip_eq_some.2 ⟨by rw [← List.head?_eq_getElem?]; exact hx0, ?_⟩), rfl⟩
    rw [List.getElem?_map, hy0]; rfl
  obtain ⟨hdi, hdo⟩ := hrel.dims hE _ hmem
  simp only [List.length_map, hd x0 hx0, List.length_singleton] at hdi hdo
  have hkf : g.kf = BaseK.mk' E.KP d := by
    rcases hk with hk | hk
    · rw [hdi] at hk; omega
    · rw [hk, hdi]; rfl
  have hmfe : g.mf = E.M.new 1 := by
    rcases hmf with hk | hk
    · rw [hdo] at hk; omega
    · rw [hk, hdo]; rfl
  obtain ⟨xs', ys', hl', e, -, -, -, hq⟩ := hfit
  obtain ⟨rfl, rfl⟩ : xs = xs' ∧ ys.map (fun y => [y]) = ys' := finPairs_inj (by simpa using hlen) hl' e
  obtain ⟨din, dout, hD, -, -, hq⟩ := hq hne
  have hdin : din = d := by rw [← hd x0 hx0]; exact (hD.inputs x0 (List.mem_of_head? hx0)).symm
  have hdout : dout = 1 := (hD.outputs [y0] (List.mem_map.2 ⟨y0, List.mem_of_getElem? hy0, rfl⟩)).symm
  subst hdin hdout
  refine ⟨hD.inputs, fun v => ?_⟩
  obtain ⟨m, h1, h2⟩ := hq v
  have hmu := query_mu h1
  have hsg : Gp.sigma g v = some (reportedVar g.kf.op g.kf.noise xs v) := by
    rw [C28_query_is_mu_sigma, hmu] at h1
    simp only [Option.bind_some] at h1
    cases hs : Gp.sigma g v with
    | none => rw [hs] at h1; cases h1
    | some s => rw [hs] at h1; simp at h1; rw [h1]
  constructor
  · unfold gpMu0
    rw [reals?_map, Option.bind_some, hmu]
    simp only
    rw [h2 0 one_pos, hkf, hmfe]
    rfl
  · unfold gpSigma0
    rw [reals?_map, Option.bind_some, hsg]
    simp only
    rw [hkf]
    rfl

theorem ehvi2dX_fin (sort : List (ℝ × ℝ) → List (ℝ × ℝ)) (c : Consts) (pop : List (ℝ × ℝ)) (r mu s : ℝ × ℝ) {v : ℝ} (h : ehvi2d sort c pop r mu s = some v) :
    ehvi2dX sort c (pop.map fun p => (XR.fin p.1, XR.fin p.2)) (XR.fin r.1, XR.fin r.2) (XR.fin mu.1, XR.fin mu.2) (XR.fin s.1, XR.fin s.2) = XR.fin v := by
  have hm : (pop.map fun p => (XR.fin p.1, XR.fin p.2)).mapM realPair? = some pop := by
    clear h
    induction pop with
    | nil => rfl
    | cons p ps ih => rw [List.map_cons, List.mapM_cons, ih]; rfl
  unfold ehvi2dX
  rw [hm]
  simp only [realPair?, XR.fin, Option.bind_eq_bind, Option.bind_some]
  rw [h]

/-- dominated points do not contribute to the dominated volume -/
theorem expectedHv_front {r : ℝ × ℝ} {A B : List (ℝ × ℝ)} (h1 : ∀ p ∈ A, p ∈ B) (h2 : ∀ p ∈ B, ∃ q ∈ A, p ≤ q) (mu var : ℝ × ℝ) :
    expectedHvImprovement r A mu var = expectedHvImprovement r B mu var := by
  have key : ∀ l : List (ℝ × ℝ), dominatedVolume (planePt r) ((l ++ A).map planePt) = dominatedVolume (planePt r) ((l ++ B).map planePt) := by
    intro l
    unfold dominatedVolume
    congr 2
    refine Set.Subset.antisymm ?_ ?_
    · refine Set.iUnion₂_subset fun p hp => ?_
      obtain ⟨q, hq, rfl⟩ := List.mem_map.1 hp
      refine Set.subset_biUnion_of_mem (u := fun p => Set.Icc (planePt r) p) (List.mem_map.2 ⟨q, ?_, rfl⟩)
      rcases List.mem_append.1 hq with h | h
      · exact List.mem_append_left _ h
      · exact List.mem_append_right _ (h1 q h)
    · refine Set.iUnion₂_subset fun p hp => ?_
      obtain ⟨q, hq, rfl⟩ := List.mem_map.1 hp
      rcases List.mem_append.1 hq with h | h
      · exact Set.subset_biUnion_of_mem (u := fun p => Set.Icc (planePt r) p) (List.mem_map.2 ⟨q, List.mem_append_left _ h, rfl⟩)
      · obtain ⟨q', hq', hle⟩ := h2 q h
        refine Set.Subset.trans (Set.Icc_subset_Icc_right ?_)
          (Set.subset_biUnion_of_mem (u := fun p => Set.Icc (planePt r) p) (List.mem_map.2 ⟨q', List.mem_append_right _ hq', rfl⟩))
        intro i
        fin_cases i
        · exact hle.1
        · exact hle.2
  have : ∀ z, hvImprovement r A z = hvImprovement r B z := by
    intro z
    unfold hvImprovement
    rw [show z :: A = [z] ++ A from rfl, show z :: B = [z] ++ B from rfl, key [z]]
    have := key []
    rw [List.nil_append, List.nil_append] at this
    rw [this]
  unfold expectedHvImprovement
  simp only [this]

/-- the population is the set of maximal observations -/
theorem front_maximal {S : List (List XR)} {ys : List (ℝ × ℝ)} (hl : S.length = ys.length) {front : List (PPoint XR)}
    (h : ParetoOf 2 S (ys.map fun p => [XR.fin p.1, XR.fin p.2]) front) {pop : List (XR × XR)} (hpop : List.Forall₂ (fun p q => p.2.1 = [q.1, q.2]) front pop) :
    ∃ rp : List (ℝ × ℝ), pop = rp.map (fun p => (XR.fin p.1, XR.fin p.2)) ∧ List.Forall₂ (fun p q => p.2.1 = [XR.fin q.1, XR.fin q.2]) front rp ∧
      (∀ p ∈ rp, p ∈ ys) ∧ ∀ p ∈ ys, ∃ q ∈ rp, p ≤ q := by
  have hfr : ∀ p ∈ front, ∃ a ∈ ys, p.2.1 = [XR.fin a.1, XR.fin a.2] := by
    intro p hp
    obtain ⟨a, ha, e⟩ := List.mem_map.1 (List.of_mem_zip ((h.2.1 p.1 p.2.1).1 ⟨p.2.2, hp⟩).1).2
    exact ⟨a, ha, e.symm⟩
  have h1 : ∃ rp : List (ℝ × ℝ), pop = rp.map (fun p => (XR.fin p.1, XR.fin p.2)) ∧ List.Forall₂ (fun p q => p.2.1 = [XR.fin q.1, XR.fin q.2]) front rp ∧
      (∀ p ∈ rp, p ∈ ys) := by
    clear h
    induction hpop with
    | nil => exact ⟨[], rfl, .nil, by simp⟩
    | @cons p q ps qs hpq _ ih =>
      obtain ⟨rp, e1, e2, e3⟩ := ih fun p hp => hfr p (List.mem_cons_of_mem _ hp)
      obtain ⟨a, ha, e⟩ := hfr p List.mem_cons_self
      refine ⟨a :: rp, ?_, .cons e e2, ?_⟩
      · rw [hpq] at e
        simp only [List.cons.injEq, and_true] at e
        rw [List.map_cons, ← e1]
        congr 1
        exact Prod.ext e.1 e.2
      · intro x hx
        rcases List.mem_cons.1 hx with rfl | hx
        · exact ha
        · exact e3 x hx
  obtain ⟨rp, e1, e2, e3⟩ := h1
  refine ⟨rp, e1, e2, e3, fun p hp => ?_⟩
  classical
  obtain ⟨q, hpq, hq, hmax⟩ := Finset.exists_le_maximal ys.toFinset (List.mem_toFinset.2 hp)
  have hqy := List.mem_toFinset.1 hq
  obtain ⟨i, hi, hqi⟩ := List.getElem_of_mem hqy
  have hin : (S[i]'(by omega), [XR.fin q.1, XR.fin q.2]) ∈ S.zip (ys.map fun p => [XR.fin p.1, XR.fin p.2]) := by
    refine List.mem_of_getElem? (i := i) (List.getElem?_zip_eq_some.2 ⟨List.getElem?_eq_getElem _, ?_⟩)
    rw [List.getElem?_map, List.getElem?_eq_getElem hi, hqi]; rfl
  obtain ⟨z, hz⟩ := (h.2.1 _ _).2 ⟨hin, by
    intro y' hy' hdom
    obtain ⟨a, ha, rfl⟩ := List.mem_map.1 hy'
    have g0 := hdom.1 0 _ _ rfl rfl
    have g1 := hdom.1 1 _ _ rfl rfl
    rw [XR.le_fin] at g0 g1
    have hle := hmax (List.mem_toFinset.2 ha) (show q ≤ a from ⟨g0, g1⟩)
    obtain ⟨k, x, y, hx, hy, hlt⟩ := hdom.2
    match k with
    | 0 =>
      cases hx; cases hy
      rw [XR.lt_fin] at hlt
      exact absurd hle.1 (not_le.2 hlt)
    | 1 =>
      cases hx; cases hy
      rw [XR.lt_fin] at hlt
      exact absurd hle.2 (not_le.2 hlt)
    | k + 2 => cases hx⟩
  obtain ⟨k, hk, hkz⟩ := List.getElem_of_mem hz
  have hlen := e2.length_eq
  have := (List.forall₂_iff_get.1 e2).2 k hk (by omega)
  rw [List.get_eq_getElem, List.get_eq_getElem, hkz] at this
  simp only [List.cons.injEq, and_true] at this
  refine ⟨rp[k]'(by omega), List.getElem_mem _, hpq.trans (le_of_eq (Prod.ext (Xt.fin.inj this.1) (Xt.fin.inj this.2)))⟩

theorem realData_of {S O : List (List XR)} {l : List (List ℝ)} {ys : List (List ℝ)} (hl : S.length = O.length) (hlen : l.length = ys.length)
    (hO : ∀ v ∈ O, v.length = 2) (hF : ∀ v ∈ O, AllFinite v) (h : S.zip (column 0 O) = finPairs l ys) : ∃ ab, RealData S O l ab := by
  have hO' : ∃ ab : List (ℝ × ℝ), O = ab.map fun p => [XR.fin p.1, XR.fin p.2] := by
    clear h hl
    induction O with
    | nil => exact ⟨[], rfl⟩
    | cons v vs ih =>
      obtain ⟨ab, e⟩ := ih (fun w hw => hO w (List.mem_cons_of_mem _ hw)) fun w hw => hF w (List.mem_cons_of_mem _ hw)
      have h2 := hO v List.mem_cons_self
      have h3 := hF v List.mem_cons_self
      match v, h2 with
      | [a, b], _ =>
        have ha := h3 a (by simp)
        have hb := h3 b (by simp)
        match a, b, ha, hb with
        | Xt.fin a, Xt.fin b, _, _ => exact ⟨(a, b) :: ab, by rw [e]; rfl⟩
  obtain ⟨ab, e⟩ := hO'
  refine ⟨ab, ?_, e⟩
  have h1 := congrArg (List.map Prod.fst) h
  rw [List.map_fst_zip (by rw [column_length]; exact hl.le)] at h1
  rw [h1, finPairs, List.map_map]
  have : (Prod.fst ∘ fun p : List ℝ × List ℝ => (p.1.map XR.fin, p.2.map XR.fin)) = (fun x : List ℝ => x.map XR.fin) ∘ Prod.fst := rfl
  rw [this, ← List.map_map, List.map_fst_zip hlen.le]

theorem objVar_pos {d : Nat} {xs : List (List ℝ)} {z : List ℝ} (hnoise : 0 < E.KP.noise) : 0 < objVar E d xs z := by
  unfold objVar reportedVar
  split_ifs with h
  · linarith
  · have : (0 : ℝ) < 2 ^ (-52 : ℤ) := by positivity
    linarith [not_le.1 h]

/-- the acquisition function on the data `(S, O)` -/
theorem ehvi_acq (hE : LawfulEnv E) {P : MuParams XR (GpState E)} {sort : List (ℝ × ℝ) → List (ℝ × ℝ)} {c : Consts} {r : ℝ × ℝ} {b fuel : Nat}
    (hP : UsesEhviGp P sort c r b fuel) {d : Nat} {S O : List (List XR)} (hl : S.length = O.length) (hO : ∀ v ∈ O, v.length = 2)
    (hF : ∀ v ∈ O, AllFinite v) (hd : ∀ s, S.head? = some s → s.length = d) (hne : S ≠ []) {front : List (PPoint XR)} (hpar : ParetoOf 2 S O front)
    {m0 m1 : GpState E} (hfit : FittedTo fixData 2 S O [m0, m1]) {pop : List (XR × XR)}
    (hpop : List.Forall₂ (fun p q => p.2.1 = [q.1, q.2]) front pop) :
    ∃ xs ys, RealData S O xs ys ∧ xs ≠ [] ∧ (∀ q ∈ xs, q.length = d) ∧ front ≠ [] ∧ ∃ (rp : List (ℝ × ℝ)) (val : List ℝ → ℝ),
      MutuallyNonDominated rp ∧ (∀ p ∈ rp, p ∈ ys) ∧ (∀ p ∈ ys, ∃ q ∈ rp, p ≤ q) ∧ rp.length ≤ ys.length ∧
      (∀ z, ehvi2d sort c rp r (objMean E d xs (ys.map Prod.fst) z, objMean E d xs (ys.map Prod.snd) z) (objVar E d xs z, objVar E d xs z) = some (val z)) ∧
      (∀ z, 0 ≤ val z) ∧ (∀ z : List ℝ, P.ehvi2d pop P.ref (P.mu m0 (z.map XR.fin), P.mu m1 (z.map XR.fin)) (P.sigma m0 (z.map XR.fin), P.sigma m1 (z.map XR.fin)) = XR.fin (val z)) := by
  have z0 : ∀ j, S.zip (column j O) ≠ [] := by
    intro j h
    have := congrArg List.length h
    rw [List.length_zip, column_length, ← hl, Nat.min_self] at this
    exact hne (List.length_eq_zero_iff.1 this)
  have f0 := fixData_rel (hfit.2 0 m0 rfl) (z0 0)
  have f1 := fixData_rel (hfit.2 1 m1 rfl) (z0 1)
  obtain ⟨xs, ys0, hl0, e0, -⟩ := f0.1.fits hE
  obtain ⟨ab, hab⟩ := realData_of hl hl0 hO hF e0
  obtain ⟨rfl, rfl⟩ := hab
  have hxl : xs.length = ab.length := by simpa using hl
  have hxs : xs ≠ [] := by rintro rfl; exact hne rfl
  have hcol : ∀ (j : Nat) (π : ℝ × ℝ → ℝ), (∀ p : ℝ × ℝ, ([XR.fin p.1, XR.fin p.2] : List XR)[j]? = some (XR.fin (π p))) →
      (xs.map fun x => x.map XR.fin).zip (column j (ab.map fun p => [XR.fin p.1, XR.fin p.2])) = finPairs xs ((ab.map π).map fun y => [y]) := by
    intro j π hπ
    rw [← zip_finPairs]
    congr 1
    simp only [column, List.map_map]
    refine List.map_congr_left fun p _ => ?_
    simp only [Function.comp, hπ, Option.toList, List.map_cons, List.map_nil]
  rw [hcol 0 Prod.fst fun p => rfl] at f0
  rw [hcol 1 Prod.snd fun p => rfl] at f1
  have hd' : ∀ q, xs.head? = some q → q.length = d := by
    intro q hq
    have := hd (q.map XR.fin) (by rw [List.head?_map, hq]; rfl)
    simpa using this
  obtain ⟨hdim, p0⟩ := obj_predicts hE hxs (by simpa using hxl) f0 hd'
  obtain ⟨-, p1⟩ := obj_predicts hE hxs (by simpa using hxl) f1 hd'
  obtain ⟨rp, rfl, hrp, hsub, hdom⟩ := front_maximal (by simpa using hxl) hpar hpop
  have hnd := C89_population _ _ _ rp hpar hrp
  have hv : ∀ z : List ℝ, ∃ w, 0 ≤ w ∧ ehvi2d sort c rp r (objMean E d xs (ab.map Prod.fst) z, objMean E d xs (ab.map Prod.snd) z) (objVar E d xs z, objVar E d xs z) = some w :=
    fun z => ⟨_, Finset.sum_nonneg fun a _ => Finset.sum_nonneg fun m _ => le_max_left _ _, ehvi2d_sum sort c rp r _ _⟩
  choose val hval0 hval using hv
  have hfne : front ≠ [] := by
    rintro rfl
    have : rp = [] := by cases hrp; rfl
    obtain ⟨p, hp⟩ : ∃ p, p ∈ ab := List.exists_mem_of_ne_nil _ (by rintro rfl; exact hxs (List.length_eq_zero_iff.1 hxl))
    obtain ⟨q, hq, -⟩ := hdom p hp
    rw [this] at hq
    cases hq
  refine ⟨xs, ab, ⟨rfl, rfl⟩, hxs, hdim, hfne, rp, val, hnd, hsub, hdom, ?_, hval, hval0, fun z => ?_⟩
  · obtain ⟨keep, hk⟩ := hpar.2.2
    have h1 := hk.length_eq
    have h2 := List.length_filter_le keep ((xs.map fun x => x.map XR.fin).zip (ab.map fun p => [XR.fin p.1, XR.fin p.2]))
    have h3 := hrp.length_eq
    rw [List.length_map] at h1
    rw [List.length_zip, List.length_map, List.length_map] at h2
    omega
  rw [hP.ehvi, hP.ref, hP.mu, hP.sigma, (p0 z).1, (p0 z).2, (p1 z).1, (p1 z).2]
  have hz := hval z
  generalize objMean E d xs (ab.map Prod.fst) z = a0, objMean E d xs (ab.map Prod.snd) z = a1, objVar E d xs z = a2 at hz
  exact ehvi2dX_fin sort c rp r (a0, a1) (a2, a2) hz

/-- the point chosen on the data `(S, O)` -/
theorem ehvi_core (hE : LawfulEnv E) {P : MuParams XR (GpState E)} {sort : List (ℝ × ℝ) → List (ℝ × ℝ)} {c : Consts} {r : ℝ × ℝ} {b fuel : Nat}
    (hP : UsesEhviGp P sort c r b fuel) {d : Nat} (hd0 : 0 < d) {S O : List (List XR)} (hl : S.length = O.length) (hO : ∀ v ∈ O, v.length = 2)
    (hF : ∀ v ∈ O, AllFinite v) (hd : ∀ s, S.head? = some s → s.length = d) {x : List XR} (hx : EhviChoice P fixData S O x) :
    ∃ xs ys, RealData S O xs ys ∧ xs ≠ [] ∧ (∀ q ∈ xs, q.length = d) ∧ ∃ v, x = v.map XR.fin ∧ GridPt b d v ∧ ∃ (rp : List (ℝ × ℝ)) (val : List ℝ → ℝ),
      MutuallyNonDominated rp ∧ (∀ p ∈ rp, p ∈ ys) ∧ (∀ p ∈ ys, ∃ q ∈ rp, p ≤ q) ∧ rp.length ≤ ys.length ∧
      (∀ z, ehvi2d sort c rp r (objMean E d xs (ys.map Prod.fst) z, objMean E d xs (ys.map Prod.snd) z) (objVar E d xs z, objVar E d xs z) = some (val z)) ∧
      ∀ q, GridPt b d q → val q ≤ val v := by
  obtain ⟨front, m0, m1, pop, results, acq, hne, hpar, hfit, hpop, hacq, hres, hchoice⟩ := hx
  obtain ⟨xs, ab, ⟨rfl, rfl⟩, hxs, hdim, hfne, rp, val, hnd, hsub, hdom, hrl, hval, hval0, hacq'⟩ := ehvi_acq hE hP hl hO hF hd hne hpar hfit hpop
  have hacqv : ∀ z : List ℝ, acq (z.map XR.fin) = XR.fin (val z) := fun z => by rw [hacq]; exact hacq' z
  -- every inner optimization returns a best grid point
  have hbest : ∀ s ∈ results, ∃ v : List ℝ, s = v.map XR.fin ∧ GridPt b d v ∧ ∀ q, GridPt b d q → val q ≤ val v := by
    intro s hs
    obtain ⟨i, hi, rfl⟩ := List.getElem_of_mem hs
    have hlen := hres.length_eq
    obtain ⟨st, k, hk⟩ := (List.forall₂_iff_get.1 hres).2 i (by omega) hi
    have hmem : front[i]'(by omega) ∈ front := List.getElem_mem _
    rw [List.get_eq_getElem, List.get_eq_getElem] at hk
    generalize front[i]'(by omega) = p at hk hmem
    have hpl : p.1.length = d := by
      obtain ⟨q, hq, e⟩ := List.mem_map.1 (List.of_mem_zip ((hpar.2.1 p.1 p.2.1).1 ⟨p.2.2, hmem⟩).1).1
      rw [← e, List.length_map]
      exact hdim q hq
    rw [hP.inner] at hk
    simp only [Optz.toRes] at hk
    split at hk
    swap
    · cases hk
    next y hy =>
    injection hk with hk
    subst hk
    obtain ⟨g1, g2⟩ := gridSearch_some_optimum hP.bins hP.fuel (by rw [hpl]; exact hd0) hy
    rw [hpl] at g1 g2
    obtain ⟨v, hv1, hv⟩ := onGrid_iff.1 g1
    refine ⟨v, hv1, hv, fun q hq => ?_⟩
    have := g2 _ (onGrid_iff.2 ⟨q, rfl, hq⟩)
    rw [hv1] at this
    simp only [hacqv] at this
    by_contra hcon
    rw [(XR.lt_fin _ _).2 (not_le.1 hcon)] at this
    cases this
  have hresne : results ≠ [] := by
    intro h0
    rw [h0] at hres
    exact hfne (by cases hres; rfl)
  rcases hchoice with ⟨hin, -, -⟩ | ⟨-, hall⟩
  · obtain ⟨v, hv1, hv2, hv3⟩ := hbest x hin
    exact ⟨xs, ab, ⟨rfl, rfl⟩, hxs, hdim, v, hv1, hv2, rp, val, hnd, hsub, hdom, hrl, hval, hv3⟩
  · exfalso
    obtain ⟨s, hs⟩ := List.exists_mem_of_ne_nil _ hresne
    obtain ⟨v, rfl, -, -⟩ := hbest s hs
    have := hall _ hs
    rw [hacqv, negFltMax, XR.lit_eq] at this
    rw [(XR.lt_fin _ _).2 (lt_of_lt_of_le (by norm_num) (hval0 v))] at this
    cases this

theorem ehvi_choices (hE : LawfulEnv E) {P : MuParams XR (GpState E)} {sort : List (ℝ × ℝ) → List (ℝ × ℝ)} {c : Consts} {r : ℝ × ℝ} {b fuel : Nat}
    (hP : UsesEhviGp P sort c r b fuel) (ci : Int) (ops : List (MuOp XR (GpState E))) (f : StateFun XR (MM XR (GpState E))) (afun : List XR → XR) (reset : Bool)
    (n : Nat) (st st' : BoState XR (MM XR (GpState E))) (h : muOps P ops (newMulti P ci) = some st)
    (h' : muOptimize .ehvi P f afun reset n st = .ok st') (hO : ∀ v ∈ st'.observations, v.length = 2) :
    st'.samples.length = st'.observations.length ∧ (∀ v ∈ st'.observations, AllFinite v) ∧
    ∃ n0 : Nat, (st'.samples.length : Int) = n0 + st'.currentIteration ∧
      ∀ j x, n0 ≤ j → st'.samples[j]? = some x → EhviChoice P fixData (st'.samples.take j) (st'.observations.take j) x := by
  have hI := muOps_inv (muOp_data P) ops _ st (newBo_inv P.bo ci _) h
  have hI' := muOp_data P (.optimize .ehvi f afun reset n) st hI
  rw [show muOp P (.optimize .ehvi f afun reset n) st = .ok st' from h'] at hI'
  obtain ⟨b1, h1, h2⟩ := Res.andThen_ok h'
  have hI1 := boInit_inv P.bo f reset st hI
  rw [h1] at hI1
  obtain ⟨-, k, hn⟩ := muLoop_ok h2
  obtain ⟨xs, -, l1, -, -, a1, -, a3, -⟩ := hn.sum
  have hc0 : b1.currentIteration = 0 := boInit_currentIteration h1
  have hL : LearnsFresh P.ops (fixData (E := E)) := by
    obtain ⟨u, jC, jA, hp, e⟩ := hP.ops
    rw [e]; exact gp_learns hE u jC jA hp
  exact ⟨hI'.len, hI'.fin, b1.samples.length, by rw [a1, a3, hc0, List.length_append, l1]; push_cast; ring,
    (hn.ehvi hL hP.pset hP.sched hI1.len hI1.fin hO).1⟩

/-- what the theorems below have in common -/
theorem ehvi_run (hE : LawfulEnv E) {P : MuParams XR (GpState E)} {sort : List (ℝ × ℝ) → List (ℝ × ℝ)} {c : Consts} {r : ℝ × ℝ}
    {b fuel : Nat} (hP : UsesEhviGp P sort c r b fuel) {d : Nat} (hd0 : 0 < d) {ci : Int}
    {ops : List (MuOp XR (GpState E))} {f : StateFun XR (MM XR (GpState E))} {afun : List XR → XR} {reset : Bool} {n : Nat}
    {st st' : BoState XR (MM XR (GpState E))} (h : muOps P ops (newMulti P ci) = some st) (h' : muOptimize .ehvi P f afun reset n st = .ok st')
    (hO : ∀ v ∈ st'.observations, v.length = 2 ∧ ∀ y z, v = [y, z] → le (XR.fin r.1) y = true ∧ le (XR.fin r.2) z = true)
    (hd : ∀ s, st'.samples.head? = some s → s.length = d) :
    ∃ n0 : Nat, (st'.samples.length : Int) = n0 + st'.currentIteration ∧ ∀ j x, n0 ≤ j → st'.samples[j]? = some x →
      ∃ xs ys, RealData (st'.samples.take j) (st'.observations.take j) xs ys ∧ xs ≠ [] ∧ ∃ v, x = v.map XR.fin ∧ GridPt b d v ∧ ∃ (rp : List (ℝ × ℝ)) (val : List ℝ → ℝ),
        MutuallyNonDominated rp ∧ (∀ p ∈ rp, p ∈ ys) ∧ (∀ p ∈ ys, ∃ q ∈ rp, p ≤ q) ∧ rp.length ≤ ys.length ∧ (∀ p ∈ ys, r.1 ≤ p.1 ∧ r.2 ≤ p.2) ∧
        (∀ z, ehvi2d sort c rp r (objMean E d xs (ys.map Prod.fst) z, objMean E d xs (ys.map Prod.snd) z) (objVar E d xs z, objVar E d xs z) = some (val z)) ∧
        ∀ q, GridPt b d q → val q ≤ val v := by
  obtain ⟨hl, hfin, n0, hn0, hch⟩ := ehvi_choices hE hP ci ops f afun reset n st st' h h' fun v hv => (hO v hv).1
  refine ⟨n0, hn0, fun j x hj hx => ?_⟩
  obtain ⟨xs, ys, hR, hxs, -, v, hv1, hv2, rp, val, hnd, hsub, hdom, hrl, hval, hmax⟩ := ehvi_core hE hP hd0 (S := st'.samples.take j) (O := st'.observations.take j)
    (by simp [hl]) (fun v hv => (hO v (List.mem_of_mem_take hv)).1) (fun v hv => hfin v (List.mem_of_mem_take hv))
    (fun s hs => hd s (by
      cases hS : st'.samples with
      | nil => rw [hS] at hs; simp at hs
      | cons a l =>
        rw [hS] at hs
        cases j with
        | zero => simp at hs
        | succ j => simpa using hs)) (hch j x hj hx)
  refine ⟨xs, ys, hR, hxs, v, hv1, hv2, rp, val, hnd, hsub, hdom, hrl, fun p hp => ?_, hval, hmax⟩
  have : [XR.fin p.1, XR.fin p.2] ∈ st'.observations.take j := by rw [hR.2]; exact List.mem_map.2 ⟨p, hp, rfl⟩
  have := (hO _ (List.mem_of_mem_take this)).2 _ _ rfl
  rwa [XR.le_fin, XR.le_fin] at this

/-- **C112**: every point `Ehvi::optimize` evaluates after the initial ones is a grid point at which the posterior of all evaluations before it promises
the largest hypervolume improvement (`ehviValue`), whatever the schedule of the parallel loop.  For exact constants in `ehvi2d`. -/
theorem C112_every_evaluation (hE : LawfulEnv E) (P : MuParams XR (GpState E)) (sort : List (ℝ × ℝ) → List (ℝ × ℝ)) (hsort : SortsByFirst sort) (r : ℝ × ℝ)
    (b fuel : Nat) (hP : UsesEhviGp P sort Consts.exact r b fuel) (hnoise : 0 < E.KP.noise) (d : Nat) (hd0 : 0 < d) (ci : Int)
    (ops : List (MuOp XR (GpState E))) (f : StateFun XR (MM XR (GpState E))) (afun : List XR → XR) (reset : Bool) (n : Nat)
    (st st' : BoState XR (MM XR (GpState E))) (h : muOps P ops (newMulti P ci) = some st) (h' : muOptimize .ehvi P f afun reset n st = .ok st')
    (hO : ∀ v ∈ st'.observations, v.length = 2 ∧ ∀ y z, v = [y, z] → le (XR.fin r.1) y = true ∧ le (XR.fin r.2) z = true)
    (hd : ∀ s, st'.samples.head? = some s → s.length = d) :
    ∃ n0 : Nat, (st'.samples.length : Int) = n0 + st'.currentIteration ∧ ∀ j x, n0 ≤ j → st'.samples[j]? = some x →
      ∃ xs ys v, RealData (st'.samples.take j) (st'.observations.take j) xs ys ∧ xs ≠ [] ∧ x = v.map XR.fin ∧ GridPt b d v ∧
        ∀ q, GridPt b d q → ehviValue E d r xs ys q ≤ ehviValue E d r xs ys v := by
  obtain ⟨n0, hn0, H⟩ := ehvi_run hE hP hd0 h h' hO hd
  refine ⟨n0, hn0, fun j x hj hx => ?_⟩
  obtain ⟨xs, ys, hR, hxs, v, hv1, hv2, rp, val, hnd, hsub, hdom, hrl, href', hval, hmax⟩ := H j x hj hx
  refine ⟨xs, ys, v, hR, hxs, hv1, hv2, fun q hq => ?_⟩
  have href : ∀ p ∈ rp, r.1 ≤ p.1 ∧ r.2 ≤ p.2 := fun p hp => href' p (hsub p hp)
  have hvar : ∀ z, 0 < objVar E d xs z := fun z => objVar_pos hnoise
  have hev : ∀ z, val z = ehviValue E d r xs ys z := by
    intro z
    have := C88_ehvi2d hsort rp r (objMean E d xs (ys.map Prod.fst) z, objMean E d xs (ys.map Prod.snd) z) (objVar E d xs z, objVar E d xs z) hnd href (hvar z) (hvar z)
    rw [hval z, Option.some.injEq] at this
    rw [this]
    exact expectedHv_front hsub hdom _ _
  rw [← hev, ← hev]
  exact hmax q hq

/-- C112 with the eleven-digit constants of the source: the value at the chosen point is the maximum over the grid up to the error of the formula (C88), which depends on
how far the posterior means at the two points are from the observations and from the reference point. -/
theorem C112_every_evaluation_source (hE : LawfulEnv E) (P : MuParams XR (GpState E)) (sort : List (ℝ × ℝ) → List (ℝ × ℝ)) (hsort : SortsByFirst sort) (r : ℝ × ℝ)
    (b fuel : Nat) (hP : UsesEhviGp P sort Consts.source r b fuel) (hnoise : 0 < E.KP.noise) (d : Nat) (hd0 : 0 < d) (ci : Int)
    (ops : List (MuOp XR (GpState E))) (f : StateFun XR (MM XR (GpState E))) (afun : List XR → XR) (reset : Bool) (n : Nat)
    (st st' : BoState XR (MM XR (GpState E))) (h : muOps P ops (newMulti P ci) = some st) (h' : muOptimize .ehvi P f afun reset n st = .ok st')
    (hO : ∀ v ∈ st'.observations, v.length = 2 ∧ ∀ y z, v = [y, z] → le (XR.fin r.1) y = true ∧ le (XR.fin r.2) z = true)
    (hd : ∀ s, st'.samples.head? = some s → s.length = d) :
    ∃ n0 : Nat, (st'.samples.length : Int) = n0 + st'.currentIteration ∧ ∀ j x, n0 ≤ j → st'.samples[j]? = some x →
      ∃ xs ys v, RealData (st'.samples.take j) (st'.observations.take j) xs ys ∧ xs ≠ [] ∧ x = v.map XR.fin ∧ GridPt b d v ∧
        ∀ q, GridPt b d q → ∀ D : ℝ × ℝ, (∀ z ∈ [v, q], ∀ p ∈ r :: ys, |p.1 - objMean E d xs (ys.map Prod.fst) z| ≤ D.1 ∧ |p.2 - objMean E d xs (ys.map Prod.snd) z| ≤ D.2) →
          ehviValue E d r xs ys q ≤ ehviValue E d r xs ys v + ((j + 1) * (j + 2) / 2 : ℝ) *
            (25e-11 * ((objVar E d xs v + D.1) * (objVar E d xs v + D.2)) + 25e-11 * ((objVar E d xs q + D.1) * (objVar E d xs q + D.2))) := by
  obtain ⟨n0, hn0, H⟩ := ehvi_run hE hP hd0 h h' hO hd
  refine ⟨n0, hn0, fun j x hj hx => ?_⟩
  obtain ⟨xs, ys, hR, hxs, v, hv1, hv2, rp, val, hnd, hsub, hdom, hrl, href', hval, hmax⟩ := H j x hj hx
  refine ⟨xs, ys, v, hR, hxs, hv1, hv2, fun q hq D hD => ?_⟩
  have href : ∀ p ∈ rp, r.1 ≤ p.1 ∧ r.2 ≤ p.2 := fun p hp => href' p (hsub p hp)
  have hvar : ∀ z, 0 < objVar E d xs z := fun z => objVar_pos hnoise
  have hyl : ys.length ≤ j := by
    have h1 := congrArg List.length hR.2
    rw [List.length_take, List.length_map] at h1
    omega
  have hlen : ((rp.length + 1) * (rp.length + 2) / 2 : ℝ) ≤ ((j + 1) * (j + 2) / 2 : ℝ) := by
    have h1 : (rp.length : ℝ) ≤ j := by exact_mod_cast hrl.trans hyl
    have h0 : (0 : ℝ) ≤ rp.length := Nat.cast_nonneg _
    have := mul_le_mul (add_le_add_left h1 1) (add_le_add_left h1 2) (by positivity) (by positivity)
    linarith
  have hev : ∀ z ∈ [v, q], |val z - ehviValue E d r xs ys z| ≤ ((j + 1) * (j + 2) / 2 : ℝ) * (25e-11 * ((objVar E d xs z + D.1) * (objVar E d xs z + D.2))) := by
    intro z hz
    have hDz : ∀ p ∈ r :: rp, |p.1 - objMean E d xs (ys.map Prod.fst) z| ≤ D.1 ∧ |p.2 - objMean E d xs (ys.map Prod.snd) z| ≤ D.2 := by
      intro p hp
      refine hD z hz p ?_
      rcases List.mem_cons.1 hp with rfl | hp
      · exact List.mem_cons_self
      · exact List.mem_cons_of_mem _ (hsub p hp)
    obtain ⟨w, hw, herr⟩ := C88_ehvi2d_source hsort rp r (objMean E d xs (ys.map Prod.fst) z, objMean E d xs (ys.map Prod.snd) z) (objVar E d xs z, objVar E d xs z) D
      hnd href (hvar z) (hvar z) hDz
    rw [hval z, Option.some.injEq] at hw
    rw [expectedHv_front hsub hdom] at herr
    rw [hw]
    refine herr.trans (mul_le_mul_of_nonneg_right hlen ?_)
    have h0 := hDz r List.mem_cons_self
    have := hvar z
    have d1 := (abs_nonneg _).trans h0.1
    have d2 := (abs_nonneg _).trans h0.2
    simp only
    positivity
  have h1 := abs_le.1 (hev v (by simp))
  have h2 := abs_le.1 (hev q (by simp))
  have h3 := hmax q hq
  rw [mul_add]
  linarith [h1.1, h1.2, h2.1, h2.2]

end Limbo
