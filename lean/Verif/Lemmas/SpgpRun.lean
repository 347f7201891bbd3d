import Mathlib.Data.List.GetD
import Verif.Lemmas.SpgpGrad
import Verif.Spec.Gp
import Verif.Spec.SpgpHist

/-! Histories of calls on the sparse Gaussian process: which data the object holds, what a successful computation leaves behind. -/

namespace Limbo

open Finset Matrix

theorem SpRes.bind_ok {α β : Type} {x : SpRes α} {f : α → SpRes β} {b : β} (h : x >>= f = .ok b) : ∃ a, x = .ok a ∧ f a = .ok b := by
  cases x with
  | error e => cases h
  | ok a => exact ⟨a, rfl, h⟩

theorem SpRes.bind_mk {α β : Type} {x : SpRes α} {f : α → SpRes β} {a : α} {b : β} (h : x = .ok a) (g : f a = .ok b) : x >>= f = .ok b := by
  rw [h]
  exact g

namespace Spgp
variable {E : SpEnv}

/-- The object holds the data `xs`, `ys` (dimensions `d`, `p`). -/
structure Holds (st : SpState E) (xs ys : List (List ℝ)) (d p : Nat) : Prop where
  ne : xs ≠ []
  le : ys.length ≤ xs.length
  xlen : ∀ x ∈ xs, x.length = d
  ylen : ∀ y ∈ ys, y.length = p
  srows : st.samples.rows = xs.length
  scols : st.samples.cols = d
  se : ∀ i < xs.length, ∀ j < d, st.samples.e i j = at' (xs.getD i []) j
  orows : st.obs.rows = ys.length
  ocols : st.obs.cols = p
  oe : ∀ i < ys.length, ∀ j < p, st.obs.e i j = at' (ys.getD i []) j
  dimIn : st.dimIn = d
  dimOut : st.dimOut = p
  mf : st.mf = E.M.new p
  om : st.obsMean = fun c => if c < st.obs.cols then (∑ i ∈ range st.obs.rows, st.obs.e i c) / st.obs.rows else 0
  zm : st.obsZm = ⟨st.obs.rows, st.obs.cols, fun i c => st.obs.e i c - meanAt st (rowL st.samples i) c⟩

/-- Only members that do not concern the data differ. -/
structure SameData (st st' : SpState E) : Prop where
  samples : st'.samples = st.samples
  obs : st'.obs = st.obs
  obsZm : st'.obsZm = st.obsZm
  obsMean : st'.obsMean = st.obsMean
  mf : st'.mf = st.mf
  dimIn : st'.dimIn = st.dimIn
  dimOut : st'.dimOut = st.dimOut
  del : st'.del = st.del

theorem SameData.trans {a b c : SpState E} (h : SameData a b) (k : SameData b c) : SameData a c :=
  ⟨k.1.trans h.1, k.2.trans h.2, k.3.trans h.3, k.4.trans h.4, k.5.trans h.5, k.6.trans h.6, k.7.trans h.7, k.8.trans h.8⟩

theorem SameData.meanAt {a b : SpState E} (h : SameData a b) (v : List ℝ) (c : Nat) : Spgp.meanAt b v c = Spgp.meanAt a v c := by
  simp only [Spgp.meanAt, meanObservation, h.samples, h.obsMean, h.mf]

theorem Holds.same {a b : SpState E} {xs ys : List (List ℝ)} {d p : Nat} (h : Holds a xs ys d p) (k : SameData a b) : Holds b xs ys d p where
  ne := h.ne
  le := h.le
  xlen := h.xlen
  ylen := h.ylen
  srows := by rw [k.samples, h.srows]
  scols := by rw [k.samples, h.scols]
  se := by rw [k.samples]; exact h.se
  orows := by rw [k.obs, h.orows]
  ocols := by rw [k.obs, h.ocols]
  oe := by rw [k.obs]; exact h.oe
  dimIn := by rw [k.dimIn, h.dimIn]
  dimOut := by rw [k.dimOut, h.dimOut]
  mf := by rw [k.mf, h.mf]
  om := by rw [k.obsMean, k.obs, h.om]
  zm := by
    rw [k.obsZm, k.obs, k.samples, h.zm]
    simp only [k.meanAt]

theorem rowL_eq {m : Mat} {i : Nat} {x : List ℝ} (hc : m.cols = x.length) (he : ∀ j < x.length, m.e i j = at' x j) : rowL m i = x := by
  refine List.ext_getElem (by simp [rowL, hc]) fun j h1 h2 => ?_
  simp only [rowL, List.getElem_map, List.getElem_range]
  rw [he j h2, at', List.getD_eq_getElem _ _ h2]

theorem Holds.row {st : SpState E} {xs ys : List (List ℝ)} {d p : Nat} (h : Holds st xs ys d p) {i : Nat} (hi : i < xs.length) :
    rowL st.samples i = xs.getD i [] := by
  have hx : (xs.getD i []).length = d := h.xlen _ (by rw [List.getD_eq_getElem _ _ hi]; exact List.getElem_mem hi)
  refine rowL_eq (by rw [h.scols, hx]) fun j hj => h.se i hi j (by omega)

theorem Holds.samplesOf {st : SpState E} {xs ys : List (List ℝ)} {d p : Nat} (h : Holds st xs ys d p) : samplesOf st = xs := by
  refine List.ext_getElem (by simp [Spgp.samplesOf, toVector, h.srows]) fun i h1 h2 => ?_
  simp only [Spgp.samplesOf, toVector, List.getElem_map, List.getElem_range]
  rw [h.row h2, List.getD_eq_getElem _ _ h2]

/-! ### Storing data -/

theorem toMatrix_ok {xs : List (List ℝ)} {m : Mat} (h : toMatrix xs = .ok m) :
    xs ≠ [] ∧ m.rows = xs.length ∧ (∀ x ∈ xs, x.length = m.cols) ∧ ∀ i < xs.length, ∀ j < m.cols, m.e i j = at' (xs.getD i []) j := by
  unfold toMatrix at h
  match xs, h with
  | x :: l, h =>
    simp only at h
    split_ifs at h with hall
    cases h
    refine ⟨by simp, rfl, fun y hy => ?_, fun i _ j _ => rfl⟩
    simp only [List.all_eq_true, decide_eq_true_eq] at hall
    exact hall y hy

theorem zm_ok {st st' : SpState E} (h : computeObservationsZm st = .ok st') : st.obs.rows ≤ st.samples.rows ∧
    st' = { st with
      obsMean := fun c => if c < st.obs.cols then (∑ i ∈ range st.obs.rows, st.obs.e i c) / st.obs.rows else 0
      obsZm := ⟨st.obs.rows, st.obs.cols, fun i c => st.obs.e i c - Spgp.meanAt { st with
        obsMean := fun c => if c < st.obs.cols then (∑ i ∈ range st.obs.rows, st.obs.e i c) / st.obs.rows else 0 } (rowL st.samples i) c⟩ } := by
  unfold computeObservationsZm at h
  simp only at h
  split_ifs at h with hr
  cases h
  exact ⟨hr, rfl⟩

theorem init_ok {st st' : SpState E} {s o : Mat} {xs ys : List (List ℝ)} (hs : toMatrix xs = .ok s) (ho : toMatrix ys = .ok o)
    (h : init st s o = .ok st') :
    (∃ d p, Holds st' xs ys d p) ∧ st'.optimizeInit = true ∧ st'.del = some E.P.jitter ∧ st'.optimized = st.optimized ∧ st'.m = pseudoCount E.P xs.length := by
  obtain ⟨hx0, hx1, hx2, hx3⟩ := toMatrix_ok hs
  obtain ⟨hy0, hy1, hy2, hy3⟩ := toMatrix_ok ho
  unfold init at h
  obtain ⟨st1, h1, h2⟩ := SpRes.bind_ok h
  obtain ⟨hr, rfl⟩ := zm_ok h1
  cases h2
  refine ⟨⟨s.cols, o.cols, ?_⟩, rfl, rfl, rfl, by simp [updateM, hx1]⟩
  exact {
    ne := hx0
    le := by simpa [hx1, hy1] using hr
    xlen := hx2
    ylen := hy2
    srows := hx1
    scols := rfl
    se := hx3
    orows := hy1
    ocols := rfl
    oe := hy3
    dimIn := rfl
    dimOut := rfl
    mf := rfl
    om := rfl
    zm := rfl }

/-- Without samples. -/
def Empty (st : SpState E) : Prop := st.samples.rows = 0 ∧ st.obs.rows = 0

/-- `add_sample` up to the call of the computation. -/
noncomputable def preAdd (st : SpState E) (x y : List ℝ) : SpRes (SpState E) :=
  let st? : SpRes (SpState E) :=
    if st.samples.rows = 0 then
      .ok { st with dimIn := x.length, kf := BaseK.mk' E.KP x.length, dimOut := y.length, mf := E.M.new y.length,
                    b := List.replicate x.length (1 * E.P.predKernelL), c := E.P.predKernelSigmaSq, sig := E.P.sig }
    else if (x.length : Int) = st.dimIn ∧ (y.length : Int) = st.dimOut then .ok st
    else .error .ub
  do
    let st ← st?
    let r := st.samples.rows
    let st := { st with samples := ⟨r + 1, st.dimIn.toNat, fun i j => if i = r then at' x j else st.samples.e i j⟩ }
    let st := updateM st
    let q := st.obs.rows
    let st := { st with obs := ⟨q + 1, st.dimOut.toNat, fun i j => if i = q then at' y j else st.obs.e i j⟩ }
    let st ← computeObservationsZm st
    .ok { st with optimizeInit := true }

theorem addSample_eq (perm : Nat → Nat) (st : SpState E) (x y : List ℝ) : addSample perm st x y = preAdd st x y >>= compute' perm := by
  unfold addSample preAdd
  simp only [bind_assoc]
  rfl

theorem preAdd_ok {st st' : SpState E} {x y : List ℝ} {xs ys : List (List ℝ)}
    (hst : (xs = [] ∧ ys = [] ∧ Empty st) ∨ ∃ d p, Holds st xs ys d p) (h : preAdd st x y = .ok st') :
    (∃ d p, Holds st' (xs ++ [x]) (ys ++ [y]) d p) ∧ st'.optimizeInit = true ∧ st'.del = st.del := by
  unfold preAdd at h
  simp only at h
  obtain ⟨st0, h0, h⟩ := SpRes.bind_ok h
  obtain ⟨st1, h1, h⟩ := SpRes.bind_ok h
  obtain ⟨hr, rfl⟩ := zm_ok h1
  cases h
  refine ⟨?_, rfl, ?_⟩
  · rcases hst with ⟨rfl, rfl, he⟩ | ⟨d, p, hd⟩
    · rw [if_pos he.1] at h0
      cases h0
      refine ⟨x.length, y.length, ?_⟩
      have e1 : st.samples.rows = 0 := he.1
      have e2 : st.obs.rows = 0 := he.2
      exact {
        ne := by simp
        le := by simp
        xlen := by simp
        ylen := by simp
        srows := by simp [updateM, e1]
        scols := by simp [updateM]
        se := by
          intro i hi j hj
          have : i = 0 := by simpa using hi
          subst this
          simp [updateM, e1]
        orows := by simp [updateM, e2]
        ocols := by simp [updateM]
        oe := by
          intro i hi j hj
          have : i = 0 := by simpa using hi
          subst this
          simp [updateM, e2]
        dimIn := rfl
        dimOut := rfl
        mf := rfl
        om := rfl
        zm := rfl }
    · have hne : ¬ st.samples.rows = 0 := by
        rw [hd.srows]
        exact fun e => hd.ne (List.length_eq_zero_iff.mp e)
      rw [if_neg hne] at h0
      split_ifs at h0 with hl
      cases h0
      have hx : x.length = d := by have := hl.1; rw [hd.dimIn] at this; exact_mod_cast this
      have hy : y.length = p := by have := hl.2; rw [hd.dimOut] at this; exact_mod_cast this
      refine ⟨d, p, ?_⟩
      have e1 := hd.srows
      have e2 := hd.orows
      exact {
        ne := by simp
        le := by simpa using hd.le
        xlen := by
          intro z hz
          rcases List.mem_append.mp hz with hz | hz
          · exact hd.xlen z hz
          · rw [List.mem_singleton.mp hz, hx]
        ylen := by
          intro z hz
          rcases List.mem_append.mp hz with hz | hz
          · exact hd.ylen z hz
          · rw [List.mem_singleton.mp hz, hy]
        srows := by simp [updateM, e1]
        scols := by simp [updateM, hd.dimIn]
        se := by
          intro i hi j hj
          simp only [updateM, e1]
          by_cases hi' : i = xs.length
          · subst hi'
            simp
          · have : i < xs.length := by simp at hi; omega
            rw [if_neg hi', hd.se i this j hj, List.getD_append _ _ _ _ this]
        orows := by simp [updateM, e2]
        ocols := by simp [updateM, hd.dimOut]
        oe := by
          intro i hi j hj
          simp only [updateM, e2]
          by_cases hi' : i = ys.length
          · subst hi'
            simp
          · have : i < ys.length := by simp at hi; omega
            rw [if_neg hi', hd.oe i this j hj, List.getD_append _ _ _ _ this]
        dimIn := hd.dimIn
        dimOut := hd.dimOut
        mf := hd.mf
        om := rfl
        zm := rfl }
  · split_ifs at h0 <;> cases h0 <;> rfl

/-- The state in which `add_sample` calls the computation. -/
theorem add_data {perm : Nat → Nat} {st st' : SpState E} {x y : List ℝ} {xs ys : List (List ℝ)}
    (hst : (xs = [] ∧ ys = [] ∧ Empty st) ∨ ∃ d p, Holds st xs ys d p) (h : addSample perm st x y = .ok st') :
    ∃ st1, (∃ d p, Holds st1 (xs ++ [x]) (ys ++ [y]) d p) ∧ st1.optimizeInit = true ∧ st1.del = st.del ∧ compute' perm st1 = .ok st' := by
  rw [addSample_eq] at h
  obtain ⟨st1, h1, h2⟩ := SpRes.bind_ok h
  obtain ⟨a, b, c⟩ := preAdd_ok hst h1
  exact ⟨st1, a, b, c, h2⟩

/-! ### The optimization -/

theorem optimizeHp_ok {perm : Nat → Nat} {st st' : SpState E} (hi : st.optimizeInit = true) (h : optimizeHp perm st = .ok st') :
    ∃ w0 w st1 hp, startVector (updateM st) perm = .ok w0 ∧ SameData st st1 ∧ st1.m = pseudoCount E.P st.samples.rows
      ∧ E.hpOpt (likelihood st1) w0 false = .ok w ∧ unpack w st1.m st1.dimIn.toNat = some hp
      ∧ st' = { st1 with pseudo := matOf hp.xb, b := (List.finRange st1.dimIn.toNat).map hp.b, c := hp.c, sig := hp.sig, optimized := true } := by
  unfold optimizeHp at h
  simp only [if_pos hi] at h
  obtain ⟨w0, hw0, h⟩ := SpRes.bind_ok h
  obtain ⟨st1, h1, h⟩ := SpRes.bind_ok h
  cases h1
  obtain ⟨w, hw, h⟩ := SpRes.bind_ok h
  simp only at h
  split at h
  · cases h
  · next hp hu =>
    cases h
    exact ⟨w0, w, _, hp, hw0, ⟨rfl, rfl, rfl, rfl, rfl, rfl, rfl, rfl⟩, rfl, hw, hu, rfl⟩

/-! ### The factors -/

theorem kernelMatrix_eq {st : SpState E} {m n d : Nat} (S : SpModel m n d) (hpos : ∀ k, 0 < S.b k) (hb : st.b = (List.finRange d).map S.b)
    (hc : st.c = S.c) {p1 p2 : Mat} (h1 : p1.cols = d) (h2 : p2.cols = d) :
    kernelMatrix st p1 p2 = .ok (Matrix.of fun i j => S.k (fun a => p1.e i a) fun a => p2.e j a) := by
  have hlen : st.b.length = d := by rw [hb]; simp
  unfold kernelMatrix
  rw [if_pos ⟨h1.trans hlen.symm, h2.trans hlen.symm⟩]
  simp only
  congr 1
  ext i j
  rw [of_apply, of_apply, SpModel.k, hc, hlen]
  congr 2
  rw [sum_range_fin, sum_range_fin, sum_range_fin, mul_sum, ← sum_add_distrib, ← sum_add_distrib, sum_mul, mul_sum]
  refine sum_congr rfl fun k _ => ?_
  have hk : at' st.b k = S.b k := by
    rw [hb, at', List.getD_eq_getElem _ _ (by simp)]
    simp
  rw [hk]
  have := Real.mul_self_sqrt (hpos k).le
  linear_combination -(1 / 2) * (p1.e i k - p2.e j k) ^ 2 * this

/-- The members hold the factors for the arguments `I`. -/
structure Fitted (st : SpState E) (I : LikIn) : Prop where
  pseudo : st.pseudo = matOf I.xb
  b : st.b = (List.finRange I.d).map I.b
  c : st.c = I.c
  sig : st.sig = I.sig
  L : st.L = matOf I.L
  Lm : st.Lm = matOf I.Lm
  bet : st.bet = matOf (Matrix.of fun i (_ : Fin 1) => I.bet i)
  optimized : st.optimized = true

theorem unpack_pos {w : List ℝ} {m d : Nat} {hp : SpHyper m d} (h : unpack w m d = some hp) : (∀ k, 0 < hp.b k) ∧ 0 < hp.c ∧ 0 < hp.sig := by
  unfold unpack at h
  split_ifs at h
  cases h
  exact ⟨fun k => Real.exp_pos _, Real.exp_pos _, Real.exp_pos _⟩

theorem factors_eq {I : LikIn} (hok : I.Ok) (hl : E.llt = I.llt) (hj : E.P.jitter = I.del) {k : Matrix (Fin I.m) (Fin I.m) ℝ}
    {kmn : Matrix (Fin I.m) (Fin I.n) ℝ} (hk : k = Matrix.of fun i j => I.toSp.k (I.xb i) (I.xb j)) (hkmn : kmn = I.toSp.Kun) :
    factors E k kmn I.c I.sig I.Y = (matOf I.L, matOf I.Lm, matOf (Matrix.of fun i (_ : Fin 1) => I.bet i)) := by
  have hQ : k + E.P.jitter • (1 : Matrix (Fin I.m) (Fin I.m) ℝ) = I.Q := by
    rw [LikIn.Q_eq hok, SpModel.Kuu, hk, hj]
    rfl
  have hb : triSolve I.Lm (I.V * Matrix.of fun j (_ : Fin 1) => I.y j) = Matrix.of fun i (_ : Fin 1) => I.bet i := by
    rw [(LikIn.cholLm hok).triSolve_eq]
    ext i j
    rw [of_apply, LikIn.bet_eq hok, mulVec_mulVec, ← Matrix.mul_assoc]
    rfl
  simp only [factors]
  rw [hQ, hkmn, ← LikIn.K0_eq hok, hl, ← hb]
  rfl

theorem compute'_ok {perm : Nat → Nat} {st st' : SpState E} {n d : Nat} {X : Matrix (Fin n) (Fin d) ℝ} {r : Fin n → ℝ} (hl : LltContract E.llt)
    (hj : 0 < E.P.jitter) (hi : st.optimizeInit = true) (hn : st.samples.rows = n) (hc : st.samples.cols = d) (hdim : st.dimIn.toNat = d)
    (hX : ∀ (i : Fin n) (a : Fin d), st.samples.e i a = X i a) (hr : ∀ i : Fin n, st.obsZm.e i 0 = r i) (h : compute' perm st = .ok st') :
    st.obsZm.rows = n ∧ st.obsZm.cols = 1 ∧ SameData st st' ∧ ∃ w0 w st1 hp, startVector (updateM st) perm = .ok w0 ∧ SameData st st1
      ∧ st1.m = pseudoCount E.P n ∧ E.hpOpt (likelihood st1) w0 false = .ok w ∧ unpack w (pseudoCount E.P n) d = some hp
      ∧ Fitted st' ⟨E.llt, pseudoCount E.P n, n, d, hp.xb, hp.b, hp.c, hp.sig, E.P.jitter, X, r⟩ := by
  unfold compute' at h
  obtain ⟨st0, h0, h⟩ := SpRes.bind_ok h
  obtain ⟨w0, w, st1, hp, hw0, hsame, hm, hw, hu, rfl⟩ := optimizeHp_ok hi h0
  obtain ⟨hpb, hpc, hps⟩ := unpack_pos hu
  rw [hn] at hm
  rw [← hm, ← hsame.obsZm]
  rw [← hsame.obsZm] at hr
  rw [← hsame.samples] at hn hc hX
  have hdim1 : st1.dimIn.toNat = d := by rw [hsame.dimIn, hdim]
  subst hdim1
  subst hn
  simp only at h
  set I : LikIn := ⟨E.llt, st1.m, st1.samples.rows, st1.dimIn.toNat, hp.xb, hp.b, hp.c, hp.sig, E.P.jitter, X, r⟩ with hI
  have hok : I.Ok := ⟨hl, hpb, hpc, hps, hj⟩
  obtain ⟨k, hk, h⟩ := SpRes.bind_ok h
  obtain ⟨kmn, hkmn, h⟩ := SpRes.bind_ok h
  rw [kernelMatrix_eq I.toSp hpb rfl rfl (p1 := matOf hp.xb) (p2 := matOf hp.xb) rfl rfl] at hk
  rw [kernelMatrix_eq I.toSp hpb rfl rfl (p1 := matOf hp.xb) (p2 := st1.samples) rfl hc] at hkmn
  have hrow : ∀ i : Fin st1.m, (fun a : Fin st1.dimIn.toNat => (matOf hp.xb).e i a) = hp.xb i := by
    intro i
    funext a
    exact natFn_fin _ _ _
  have hrowX : ∀ j : Fin st1.samples.rows, (fun a : Fin st1.dimIn.toNat => st1.samples.e j a) = X j := by
    intro j
    funext a
    exact hX j a
  have hF := factors_eq (E := E) hok rfl rfl (k := k) (kmn := kmn) (by
      cases hk
      ext i j
      exact congrArg₂ I.toSp.k (hrow i) (hrow j)) (by
      cases hkmn
      ext i j
      exact congrArg₂ I.toSp.k (hrow i) (hrowX j))
  split_ifs at h with hsz
  obtain ⟨-, ho1, ho2⟩ := hsz
  refine ⟨ho1, ho2, ?_, w0, w, st1, hp, hw0, hsame, rfl, hw, hu, ?_⟩
  · cases h
    exact hsame.trans ⟨rfl, rfl, rfl, rfl, rfl, rfl, rfl, rfl⟩
  · have hz : (fun j : Fin st1.samples.rows => st1.obsZm.e j 0) = I.Y := funext hr
    have hF' : factors E k kmn hp.c hp.sig (fun j => st1.obsZm.e j 0) = (matOf I.L, matOf I.Lm, matOf (Matrix.of fun i (_ : Fin 1) => I.bet i)) := by
      rw [hz]
      exact hF
    rw [hF'] at h
    cases h
    exact ⟨rfl, rfl, rfl, rfl, rfl, rfl, rfl, rfl⟩

/-! ### The objective -/

/-- Arguments of the likelihood for a vector of hyper-parameters. -/
noncomputable def vecIn (llt : Nat → (Nat → Nat → ℝ) → Nat → Nat → ℝ) (m : Nat) {n d : Nat} (X : Matrix (Fin n) (Fin d) ℝ) (r : Fin n → ℝ) (δ : ℝ)
    (w : List ℝ) : LikIn :=
  ⟨llt, m, n, d, Matrix.of fun i k => at' w (k * m + i), fun k => Real.exp (at' w (m * d + k)), Real.exp (at' w ((m + 1) * d)),
      Real.exp (at' w ((m + 1) * d + 1)), δ, X, r⟩

theorem vecIn_ok {llt : Nat → (Nat → Nat → ℝ) → Nat → Nat → ℝ} (hl : LltContract llt) (m : Nat) {n d : Nat} (X : Matrix (Fin n) (Fin d) ℝ) (r : Fin n → ℝ)
    {δ : ℝ} (hδ : 0 < δ) (w : List ℝ) : (vecIn llt m X r δ w).Ok :=
  ⟨hl, fun _ => Real.exp_pos _, Real.exp_pos _, Real.exp_pos _, hδ⟩

theorem likelihood_eq {st : SpState E} {m n d : Nat} {X : Matrix (Fin n) (Fin d) ℝ} {r : Fin n → ℝ} {δ : ℝ} (hm : st.m = m) (hn : st.samples.rows = n)
    (hdim : st.dimIn.toNat = d) (hX : ∀ (i : Fin n) (a : Fin d), st.samples.e i a = X i a) (hr : ∀ i : Fin n, st.obsZm.e i 0 = r i)
    (hz : st.obsZm.rows = n) (hz1 : st.obsZm.cols = 1) (hdel : st.del = some δ) {w : List ℝ} (hw : (m + 1) * d + 2 ≤ w.length) (g : Bool) :
    likelihood st w g = some ((vecIn E.llt m X r δ w).result g) := by
  subst hm
  subst hn
  subst hdim
  unfold likelihood
  rw [unpack, if_pos hw, hdel]
  simp only
  rw [if_pos ⟨hz1, hz⟩]
  have e1 : st.samples.fin st.samples.rows st.dimIn.toNat = X := by
    ext i a
    exact hX i a
  have e2 : (fun i : Fin st.samples.rows => st.obsZm.e i 0) = r := funext hr
  rw [e1, e2]
  rfl

theorem unpack_eq {w : List ℝ} {m d : Nat} {hp : SpHyper m d} (h : unpack w m d = some hp) : (m + 1) * d + 2 ≤ w.length
    ∧ hp = ⟨Matrix.of fun i k => at' w (k * m + i), fun k => Real.exp (at' w (m * d + k)), Real.exp (at' w ((m + 1) * d)),
      Real.exp (at' w ((m + 1) * d + 1))⟩ := by
  unfold unpack at h
  split_ifs at h with hl
  cases h
  exact ⟨hl, rfl⟩

/-! ### Predictions -/

theorem predVals_eq {I : LikIn} (hok : I.Ok) {q : Nat} (x : Fin q → Fin I.d → ℝ) :
    predVals ((matOf I.L).fin I.m I.m) ((matOf I.Lm).fin I.m I.m) ((matOf (Matrix.of fun i (_ : Fin 1) => I.bet i)).fin I.m 1)
      (Matrix.of fun i j => I.toSp.ku (x j) i) I.c I.sig I.sig
      = (Matrix.of fun j _ => I.toSp.mean I.Y (x j), fun j => I.toSp.var (x j)) := by
  have hlst : triSolve I.L (Matrix.of fun i j => I.toSp.ku (x j) i) = Matrix.of fun i j => (I.L⁻¹ *ᵥ I.toSp.ku (x j)) i := by
    rw [(LikIn.cholL hok).triSolve_eq]
    ext i j
    rfl
  have hlmst : triSolve I.Lm (Matrix.of fun i j => (I.L⁻¹ *ᵥ I.toSp.ku (x j)) i) = Matrix.of fun i j => (I.Lm⁻¹ *ᵥ (I.L⁻¹ *ᵥ I.toSp.ku (x j))) i := by
    rw [(LikIn.cholLm hok).triSolve_eq]
    ext i j
    rfl
  simp only [predVals]
  rw [matOf_fin, matOf_fin, matOf_fin, hlst, hlmst]
  congr 1
  · ext j c
    rw [of_apply, ← LikIn.pred_mean hok]
    rfl
  · funext j
    rw [← LikIn.pred_var hok]
    simp only [of_apply, dotProduct, pow_two]

theorem predict_fitted {st : SpState E} {I : LikIn} (hok : I.Ok) (hf : Fitted st I) (hs : st.samples.rows ≠ 0) (ho : st.dimOut = 1) {xt : Mat}
    (hv : xt.cols = I.d) :
    ∃ R : Mat × (Nat → ℝ), predict st xt = .ok R ∧ R.1.rows = xt.rows ∧ R.1.cols = 1 ∧ ∀ i < xt.rows,
      R.1.e i 0 = Spgp.meanAt st (rowL xt i) 0 + I.toSp.mean I.Y (fun a => xt.e i a) ∧ R.2 i = I.toSp.var fun a => xt.e i a := by
  obtain ⟨m, dimIn, dimOut, del, samples, obs, obsZm, obsMean, mf, kf, pseudo, b, c, sig, Lm, bet, L, oi, op, wi⟩ := st
  obtain ⟨f1, f2, f3, f4, f5, f6, f7, f8⟩ := hf
  simp only at f1 f2 f3 f4 f5 f6 f7 f8 hs ho
  subst f1 f2 f3 f4 f5 f6 f7 f8 ho
  unfold predict
  simp only [if_neg hs]
  rw [kernelMatrix_eq I.toSp hok.b rfl rfl (p1 := matOf I.xb) (p2 := xt) rfl hv]
  have hk : (Matrix.of fun (i : Fin I.m) (j : Fin xt.rows) => I.toSp.k (fun a => (matOf I.xb).e i a) fun a => xt.e j a)
      = Matrix.of fun (i : Fin I.m) (j : Fin xt.rows) => I.toSp.ku (fun a => xt.e j a) i := by
    ext i j
    have : (fun a : Fin I.d => (matOf I.xb).e i a) = I.xb i := by
      funext a
      exact natFn_fin _ _ _
    exact congrArg₂ I.toSp.k this rfl
  have hp := predVals_eq hok fun (j : Fin xt.rows) (a : Fin I.d) => xt.e j a
  rw [← hk] at hp
  refine ⟨_, if_pos ⟨rfl, rfl, rfl, rfl⟩, rfl, rfl, fun i hi => ⟨?_, ?_⟩⟩
  · refine congrArg (_ + ·) ((natFn_fin _ ⟨i, hi⟩ (0 : Fin 1)).trans ?_)
    exact congrFun (congrFun (congrArg Prod.fst hp) ⟨i, hi⟩) 0
  · refine (dif_pos hi).trans ?_
    exact congrFun (congrArg Prod.snd hp) ⟨i, hi⟩

theorem query_fitted {st : SpState E} {I : LikIn} (hok : I.Ok) (hf : Fitted st I) (hs : st.samples.rows ≠ 0) (ho : st.dimOut = 1) {v : List ℝ}
    (hv : v.length = I.d) :
    query st v = .ok (Spgp.meanAt st v 0 + I.toSp.mean I.Y (fun a => at' v a), I.toSp.var fun a => at' v a) := by
  have hrow : rowL (rowMat v) 0 = v := rowL_eq rfl fun j _ => rfl
  obtain ⟨R, hR, h1, h2, h3⟩ := predict_fitted hok hf hs ho (xt := rowMat v) hv
  obtain ⟨h4, h5⟩ := h3 0 Nat.one_pos
  unfold query
  rw [hR]
  change (if R.1.cols = 1 then _ else _) = _
  rw [if_pos h2, h4, h5, hrow]
  rfl

/-! ### Histories -/

/-- No data, or the data `D`. -/
def Inv (st : SpState E) (D : List (List ℝ) × List (List ℝ)) : Prop := (D.1 = [] ∧ D.2 = [] ∧ Empty st) ∨ ∃ d p, Holds st D.1 D.2 d p

theorem startVector_empty {perm : Nat → Nat} {st : SpState E} (h : st.samples.rows = 0) {w : List ℝ} : startVector (updateM st) perm ≠ .ok w := by
  intro e
  unfold startVector at e
  simp only [updateM, h, true_or, if_true] at e
  cases e

/-- A call that returns: the data it works with, and the state in which it runs the computation. -/
theorem step_ok {st st' : SpState E} {D : List (List ℝ) × List (List ℝ)} {op : Op} (hst : Inv st D) (h : step st op = .ok st') :
    ∃ st1 d p, Holds st1 (heldStep D op).1 (heldStep D op).2 d p ∧ st1.optimizeInit = true ∧ st1.del = (if op.sets then some E.P.jitter else st.del)
      ∧ (if op.refits then compute' op.perm st1 = .ok st' else optimizeHp op.perm st1 = .ok st') := by
  cases op with
  | compute s o p =>
    change Spgp.compute p st s o = .ok st' at h
    unfold Spgp.compute at h
    obtain ⟨sm, hs, h⟩ := SpRes.bind_ok h
    obtain ⟨om, ho, h⟩ := SpRes.bind_ok h
    split_ifs at h with hz
    obtain ⟨st1, h1, h⟩ := SpRes.bind_ok h
    obtain ⟨⟨d, q, hd⟩, hi, hdel, -, -⟩ := init_ok hs ho h1
    exact ⟨st1, d, q, hd, hi, hdel, h⟩
  | add x y p =>
    obtain ⟨st1, ⟨d, q, hd⟩, hi, hdel, h⟩ := add_data hst h
    exact ⟨st1, d, q, hd, hi, hdel, h⟩
  | recompute p =>
    change compute' p { st with optimizeInit := true } = .ok st' at h
    rcases hst with ⟨-, -, he⟩ | ⟨d, q, hd⟩
    · have h' := h
      unfold compute' at h'
      obtain ⟨st0, h0, -⟩ := SpRes.bind_ok h'
      obtain ⟨w0, w, st1, hp, hw0, -⟩ := optimizeHp_ok rfl h0
      exact absurd hw0 (startVector_empty he.1)
    · exact ⟨{ st with optimizeInit := true }, d, q, hd.same ⟨rfl, rfl, rfl, rfl, rfl, rfl, rfl, rfl⟩, rfl, rfl, h⟩
  | optimizeHyperparams p =>
    change optimizeHp p { st with optimizeInit := true } = .ok st' at h
    rcases hst with ⟨-, -, he⟩ | ⟨d, q, hd⟩
    · obtain ⟨w0, w, st1, hp, hw0, -⟩ := optimizeHp_ok rfl h
      exact absurd hw0 (startVector_empty he.1)
    · exact ⟨{ st with optimizeInit := true }, d, q, hd.same ⟨rfl, rfl, rfl, rfl, rfl, rfl, rfl, rfl⟩, rfl, rfl, h⟩

theorem optimizeHp_same {perm : Nat → Nat} {st st' : SpState E} (hi : st.optimizeInit = true) (h : optimizeHp perm st = .ok st') : SameData st st' := by
  obtain ⟨w0, w, st1, hp, -, hs, -, -, -, rfl⟩ := optimizeHp_ok hi h
  exact hs.trans ⟨rfl, rfl, rfl, rfl, rfl, rfl, rfl, rfl⟩

theorem compute'_same {perm : Nat → Nat} {st st' : SpState E} (hi : st.optimizeInit = true) (h : compute' perm st = .ok st') : SameData st st' := by
  unfold compute' at h
  obtain ⟨st0, h0, h⟩ := SpRes.bind_ok h
  obtain ⟨k, hk, h⟩ := SpRes.bind_ok h
  obtain ⟨kmn, hkmn, h⟩ := SpRes.bind_ok h
  simp only at h
  split_ifs at h
  cases h
  exact (optimizeHp_same hi h0).trans ⟨rfl, rfl, rfl, rfl, rfl, rfl, rfl, rfl⟩

theorem step_inv {st st' : SpState E} {D : List (List ℝ) × List (List ℝ)} {op : Op} (hst : Inv st D) (h : step st op = .ok st') :
    (∃ d p, Holds st' (heldStep D op).1 (heldStep D op).2 d p) ∧ st'.del = if op.sets then some E.P.jitter else st.del := by
  obtain ⟨st1, d, p, hd, hi, hdel, h1⟩ := step_ok hst h
  split_ifs at h1
  · have := compute'_same hi h1
    exact ⟨⟨d, p, hd.same this⟩, by rw [this.del, hdel]⟩
  · have := optimizeHp_same hi h1
    exact ⟨⟨d, p, hd.same this⟩, by rw [this.del, hdel]⟩

theorem run_append {st st' : SpState E} {ops : List Op} {op : Op} (h : run st (ops ++ [op]) = .ok st') :
    ∃ st1, run st ops = .ok st1 ∧ step st1 op = .ok st' := by
  unfold run at h
  rw [List.foldlM_append] at h
  obtain ⟨st1, h1, h2⟩ := SpRes.bind_ok h
  refine ⟨st1, h1, ?_⟩
  simp only [List.foldlM_cons, List.foldlM_nil] at h2
  obtain ⟨st2, h3, h4⟩ := SpRes.bind_ok h2
  cases h4
  exact h3

theorem run_inv {st st' : SpState E} {D : List (List ℝ) × List (List ℝ)} {ops : List Op} (hst : Inv st D) (h : run st ops = .ok st') :
    Inv st' (ops.foldl heldStep D) ∧ st'.del = if ops.any Op.sets then some E.P.jitter else st.del := by
  induction ops using List.reverseRecOn generalizing st' with
  | nil =>
    cases h
    exact ⟨hst, rfl⟩
  | append_singleton ops op ih =>
    obtain ⟨st1, h1, h2⟩ := run_append h
    obtain ⟨hi, hdel⟩ := ih h1
    obtain ⟨⟨d, p, hd⟩, hdel'⟩ := step_inv hi h2
    rw [List.foldl_append]
    refine ⟨.inr ⟨d, p, hd⟩, ?_⟩
    rw [hdel', hdel]
    simp only [List.any_append, List.any_cons, List.any_nil, Bool.or_false, Bool.or_eq_true]
    by_cases a : op.sets <;> by_cases b : ops.any Op.sets <;> simp [a, b]

theorem make_inv {s : Start} {st : SpState E} (h : make E s = .ok st) : Inv st (heldStart s) ∧ st.del = if s.sets then some E.P.jitter else none := by
  cases s with
  | default u =>
    cases h
    exact ⟨.inl ⟨rfl, rfl, rfl, rfl⟩, rfl⟩
  | dims u i o =>
    cases h
    exact ⟨.inl ⟨rfl, rfl, rfl, rfl⟩, rfl⟩
  | data u xs ys =>
    unfold make newData at h
    obtain ⟨sm, hs, h⟩ := SpRes.bind_ok h
    obtain ⟨om, ho, h⟩ := SpRes.bind_ok h
    obtain ⟨hd, -, hdel, -, -⟩ := init_ok hs ho h
    exact ⟨.inr hd, hdel⟩

/-! ### Residuals -/

theorem Holds.mean_eq {st : SpState E} {xs ys : List (List ℝ)} {d : Nat} (h : Holds st xs ys d 1) (hd : 0 < d) (v : List ℝ) :
    Spgp.meanAt st v 0 = spPriorMean E.M ys v := by
  have h1 : 0 < st.samples.rows * st.samples.cols := by
    rw [h.srows, h.scols]
    exact Nat.mul_pos (List.length_pos_iff.mpr h.ne) hd
  have h2 : st.obsMean = spAvgObs ys := by
    rw [h.om]
    funext c
    rw [h.ocols, h.orows, spAvgObs]
    by_cases hc : c = 0
    · subst hc
      rw [if_pos Nat.one_pos, if_pos rfl, sum_range_fin]
      congr 1
      exact sum_congr rfl fun i _ => h.oe i i.2 0 Nat.one_pos
    · rw [if_neg (by omega), if_neg hc]
  rw [Spgp.meanAt, meanObservation, if_pos h1, h2, h.mf, spPriorMean]

theorem Holds.resid_eq {st : SpState E} {xs ys : List (List ℝ)} {d : Nat} (h : Holds st xs ys d 1) (hd : 0 < d) (hl : ys.length = xs.length)
    (i : Fin xs.length) : st.obsZm.e i 0 = spResid E.M xs.length xs ys i := by
  rw [h.zm]
  simp only
  rw [h.oe i (by rw [hl]; exact i.2) 0 Nat.one_pos, h.mean_eq hd, h.row i.2]
  rfl

/-- Everything about a history that ends with a call that runs the computation. -/
theorem history {s : Start} {ops : List Op} {op : Op} {st : SpState E} {xs ys : List (List ℝ)} (hl : LltContract E.llt) (hj : 0 < E.P.jitter)
    (hop : op.refits = true) (h : make E s >>= (run · (ops ++ [op])) = .ok st) (hD : (ops ++ [op]).foldl heldStep (heldStart s) = (xs, ys))
    (hx : ∀ x ∈ xs, x ≠ []) :
    ∃ (d : Nat) (w0 w : List ℝ) (st0 st1 : SpState E), DataSet xs ys d 1 ∧ Holds st xs ys d 1 ∧ Holds st0 xs ys d 1 ∧ startVector (updateM st0) op.perm = .ok w0
      ∧ Holds st1 xs ys d 1 ∧ st1.m = pseudoCount E.P xs.length
      ∧ st1.del = (if s.sets || (ops ++ [op]).any Op.sets then some E.P.jitter else none)
      ∧ E.hpOpt (likelihood st1) w0 false = .ok w ∧ (pseudoCount E.P xs.length + 1) * d + 2 ≤ w.length
      ∧ Fitted st (vecIn E.llt (pseudoCount E.P xs.length) (spInputs xs.length d xs) (spResid E.M xs.length xs ys) E.P.jitter w) := by
  obtain ⟨sa, ha, h⟩ := SpRes.bind_ok h
  obtain ⟨sb, hb, h⟩ := run_append h
  obtain ⟨hia, hda⟩ := make_inv ha
  obtain ⟨hib, hdb⟩ := run_inv hia hb
  obtain ⟨s1, d, p, hd, hi, hdel, hc⟩ := step_ok hib h
  rw [List.foldl_append] at hD
  simp only [List.foldl_cons, List.foldl_nil] at hD
  rw [hD] at hd
  simp only at hd
  rw [if_pos hop] at hc
  have hdpos : 0 < d := by
    obtain ⟨x, hxm⟩ := List.exists_mem_of_ne_nil _ hd.ne
    rw [← hd.xlen x hxm]
    exact List.length_pos_iff.mpr (hx x hxm)
  have hrc : s1.obsZm.rows = s1.samples.rows ∧ s1.obsZm.cols = 1 := by
    have := compute'_ok (n := s1.samples.rows) (d := d) (X := Matrix.of fun i a => s1.samples.e i a) (r := fun i => s1.obsZm.e i 0) hl hj hi rfl hd.scols (by rw [hd.dimIn]; rfl)
      (fun _ _ => rfl) (fun _ => rfl) hc
    exact ⟨this.1, this.2.1⟩
  have hp : p = 1 := by
    have := hrc.2
    rw [hd.zm] at this
    exact hd.ocols.symm.trans this
  subst hp
  have hlen : ys.length = xs.length := by
    have := hrc.1
    rw [hd.zm] at this
    rw [← hd.orows, ← hd.srows]
    exact this
  obtain ⟨-, -, hsame, w0, w, st1, hp, hw0, hsame1, hm, hw, hu, hf⟩ := compute'_ok (X := spInputs xs.length d xs) (r := spResid E.M xs.length xs ys) hl hj hi
    hd.srows hd.scols (by rw [hd.dimIn]; rfl) (fun i a => hd.se i i.2 a a.2) (fun i => hd.resid_eq hdpos hlen i) hc
  obtain ⟨hwl, rfl⟩ := unpack_eq hu
  refine ⟨d, w0, w, s1, st1, ⟨hd.ne, hlen, hd.xlen, hd.ylen, hdpos, Nat.one_pos⟩, hd.same hsame, hd, hw0, hd.same hsame1, hm, ?_, hw, hwl, hf⟩
  rw [hsame1.del, hdel, hdb, hda]
  simp only [List.any_append, List.any_cons, List.any_nil, Bool.or_false, Bool.or_eq_true]
  by_cases a : op.sets <;> by_cases b : ops.any Op.sets <;> by_cases c : s.sets <;> simp [a, b, c]

end Spgp
end Limbo
