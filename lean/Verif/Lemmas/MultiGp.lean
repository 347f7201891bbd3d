import Verif.Spec.MultiGp
import Verif.Lemmas.HpOpt

set_option linter.unusedSectionVars false

namespace Limbo

open Finset

section loop

variable {σ β : Type} {f : Nat → σ → Option β}

theorem loopM_spec : ∀ {i : Nat} {l : List σ} {l' : List β}, loopM f i l = some l' →
    l'.length = l.length ∧ ∀ n b, l'[n]? = some b → ∃ g, l[n]? = some g ∧ f (i + n) g = some b
  | i, [], l', h => by cases h; simp
  | i, s :: l, l', h => by
    simp only [loopM, Option.bind_eq_some_iff, Option.map_eq_some_iff] at h
    obtain ⟨b, hb, r, hr, rfl⟩ := h
    obtain ⟨h1, h2⟩ := loopM_spec hr
    refine ⟨by simp [h1], ?_⟩
    intro n b' hn
    cases n with
    | zero => simp only [List.getElem?_cons_zero, Option.some.injEq] at hn; subst hn; exact ⟨s, rfl, hb⟩
    | succ n =>
      simp only [List.getElem?_cons_succ] at hn
      obtain ⟨g, hg, hf⟩ := h2 n b' hn
      exact ⟨g, by simpa using hg, by rw [← hf]; congr 1; omega⟩

theorem loopM_ok : ∀ {i : Nat} {l : List σ}, (∀ n g, l[n]? = some g → ∃ b, f (i + n) g = some b) → ∃ l', loopM f i l = some l'
  | i, [], _ => ⟨[], rfl⟩
  | i, s :: l, h => by
    obtain ⟨b, hb⟩ := h 0 s rfl
    obtain ⟨r, hr⟩ := loopM_ok (i := i + 1) (l := l) (by
      intro n g hg
      obtain ⟨b, hb⟩ := h (n + 1) g (by simpa using hg)
      exact ⟨b, by rw [← hb]; congr 1; omega⟩)
    rw [Nat.add_zero] at hb
    exact ⟨b :: r, by simp only [loopM, hb, Option.bind_some, hr, Option.map_some]⟩

end loop

namespace MultiGp

open Gp

variable {E : GpEnv}

theorem sub_lawful (hE : LawfulEnv E) : LawfulEnv E.sub := ⟨hE.llt, hE.noise, hE.cov⟩

theorem foldl_sum (l : List (List ℝ)) (c : Nat) : l.foldl (fun acc y => acc + at' y c) 0 = (l.map fun y => at' y c).sum := by
  have : ∀ z, l.foldl (fun acc y => acc + at' y c) z = z + (l.map fun y => at' y c).sum := by
    induction l with
    | nil => simp
    | cons y l ih => intro z; simp only [List.foldl_cons, ih, List.map_cons, List.sum_cons]; ring
  rw [this, zero_add]

theorem averageObs_ok {ys : List (List ℝ)} {d : Nat} (h : ∀ y ∈ ys, y.length = d) :
    averageObs ys d = some fun c => if c < d then dataMeanOf ys c else 0 := by
  unfold averageObs
  rw [if_neg (by simpa using h)]
  congr 1
  funext c
  rw [foldl_sum]
  rfl

theorem averageObs_inv {ys : List (List ℝ)} {d : Nat} {a : Nat → ℝ} (h : averageObs ys d = some a) : ∀ y ∈ ys, y.length = d := by
  unfold averageObs at h
  split at h
  · cases h
  · rename_i hh; simpa using hh

/-- What is known about sub-model `c`. -/
def SubOK (E : GpEnv) (B : MgAbs) (m : List ℝ → Nat → ℝ) (c : Nat) (g : GpState E.sub) : Prop :=
  ∃ A : GpAbs, Tracks E.sub A g ∧ A.xs = B.xs ∧ (B.k = true → A.k = true) ∧ (B.m = true → A.m = true) ∧ (B.a = true → A.a = true) ∧
    (B.i = true → A.i = true) ∧ (B.r = true → A.ys = centred m B.xs B.ys c) ∧ (B.xs ≠ [] → ∃ din, DataSet A.xs A.ys din 1)

/-- The state matches the user's bookkeeping. -/
structure MTracks (E : GpEnv) (B : MgAbs) (st : MultiGpState E) : Prop where
  obs : st.obs = B.ys
  empty : B.xs = [] → B.ys = []
  ne : B.xs ≠ [] → ∃ din dout : Nat, DataSet B.xs B.ys din dout ∧ st.dimIn = din ∧ st.dimOut = dout ∧ st.models.length = dout ∧
    st.meanObs = fun c => if c < dout then dataMeanOf B.ys c else 0
  reach : st.dimOut = -1 ∨ MReach E.M st.dimOut.toNat st.mf
  len : (st.models.length : Int) = max st.dimOut 0
  subs : ∀ c g, st.models[c]? = some g → SubOK E B (meanFn st.mf B.ys st.dimOut.toNat) c g

theorem centred_length {m : List ℝ → Nat → ℝ} {xs ys : List (List ℝ)} (h : ys.length = xs.length) (c : Nat) : (centred m xs ys c).length = xs.length := by
  unfold centred; rw [List.length_zipWith, h, min_self]

theorem centred_dataset {m : List ℝ → Nat → ℝ} {xs ys : List (List ℝ)} {din dout : Nat} (hd : DataSet xs ys din dout) (c : Nat) :
    DataSet xs (centred m xs ys c) din 1 := by
  refine ⟨hd.nonempty, centred_length hd.same c, hd.inputs, ?_, hd.din_pos, Nat.one_pos⟩
  intro y hy
  unfold centred at hy
  obtain ⟨i, hi, rfl⟩ := List.getElem_of_mem hy
  simp

theorem centred_congr {m m' : List ℝ → Nat → ℝ} {xs ys : List (List ℝ)} {c : Nat} (h : ∀ x, m x c = m' x c) : centred m xs ys c = centred m' xs ys c := by
  unfold centred
  congr 1
  funext x y
  rw [h]

theorem centred_append {m : List ℝ → Nat → ℝ} {xs ys : List (List ℝ)} (h : ys.length = xs.length) (x y : List ℝ) (c : Nat) :
    centred m (xs ++ [x]) (ys ++ [y]) c = centred m xs ys c ++ [[at' y c - m x c]] := by
  unfold centred
  rw [List.zipWith_append h.symm]
  rfl

theorem newModels_get {u : Nat → ℝ × ℝ} {din dout c : Nat} {g : GpState E.sub} (h : (newModels E u din dout)[c]? = some g) :
    g = Gp.newDims E.sub (u c) din 1 := by
  unfold newModels at h
  rw [List.getElem?_map, Option.map_eq_some_iff] at h
  obtain ⟨a, h1, rfl⟩ := h
  rw [List.getElem?_range (by
    have := (List.getElem?_eq_some_iff.1 h1).1
    simpa using this)] at h1
  cases h1; rfl

theorem newModels_length {u : Nat → ℝ × ℝ} {din dout : Nat} : (newModels E u din dout).length = dout := by simp [newModels]

theorem meanAt_eq {st : MultiGpState E} {ys : List (List ℝ)} {dout : Nat} (h1 : st.obs = ys) (hne : ys ≠ [])
    (h2 : st.meanObs = fun c => if c < dout then dataMeanOf ys c else 0) (v : List ℝ) (c : Nat) : meanAt st v c = meanFn st.mf ys dout v c := by
  unfold meanAt meanObservation meanFn
  rw [h1, if_pos (List.length_pos_iff.2 hne), h2]

/-- The kernel of sub-model `c` when data with inputs of dimension `din` arrive. -/
noncomputable def kernAt (st : MultiGpState E) (din c : Nat) : BaseK E.sub.K :=
  match st.models[c]? with
  | some g => if g.dimIn = din then g.kf else BaseK.mk' E.KP din
  | none => BaseK.mk' E.KP din

theorem kernAt_of {st : MultiGpState E} {din c : Nat} {g : GpState E.sub} (hg : st.models[c]? = some g) (hd : g.dimIn = din) : kernAt st din c = g.kf := by
  unfold kernAt; rw [hg]; exact if_pos hd

theorem kernAt_nil {st : MultiGpState E} {din c : Nat} (h : st.models = []) : kernAt st din c = BaseK.mk' E.KP din := by
  unfold kernAt; rw [h]; rfl

/-- Fitting a data set succeeds. -/
theorem compute_ok (hE : LawfulEnv E) {B : MgAbs} {st : MultiGpState E} (M : MTracks E B st) (junk : MultiJunk) {xs ys : List (List ℝ)} {din dout : Nat}
    (hd : DataSet xs ys din dout) (ck : Bool) (ind : Bool) :
    ∃ st', compute junk st xs ys ck = some st' ∧ MTracks E (B.step ind (.compute xs ys ck)) st' ∧
      st'.mf = (if st.dimOut = dout then st.mf else E.M.new dout) ∧ st'.dimIn = din ∧ st'.dimOut = dout ∧ st'.models.length = dout ∧
      (st.models.length = dout ∨ st.models = [] → ∀ (c : Nat) (g' : GpState E.sub), st'.models[c]? = some g' → g'.kf = kernAt st din c ∧ g'.dimIn = din) ∧
      (st.models.length = dout → ∀ (c : Nat) (g' : GpState E.sub), st'.models[c]? = some g' → ∃ g ys', st.models[c]? = some g ∧ DataSet xs ys' din 1 ∧
        Gp.compute (junk.mat c) g xs ys' ck = some g') := by
  have hlen : ¬(xs.length = 0 ∨ ys.length = 0 ∨ xs.length ≠ ys.length) := by
    have := List.length_pos_iff.2 hd.nonempty
    have := hd.same
    omega
  have hhx : (xs.headD []).length = din := by
    obtain ⟨x, l, rfl⟩ := List.exists_cons_of_ne_nil hd.nonempty
    exact hd.inputs x (by simp)
  have hhy : (ys.headD []).length = dout := by
    obtain ⟨y, l, rfl⟩ := List.exists_cons_of_ne_nil hd.ys_ne
    exact hd.outputs y (by simp)
  unfold compute
  rw [if_neg hlen, hhx, hhy]
  simp only
  rw [if_neg hd.dout_pos.ne', averageObs_ok hd.outputs, Option.bind_some]
  generalize hms : (if st.models.length ≠ dout then newModels E junk.num din dout else st.models) = ms
  generalize hmf : (if st.dimOut ≠ (dout : Int) then E.M.new dout else st.mf) = mf
  have hl : ms.length = dout := by
    rw [← hms]; split
    · exact newModels_length
    · rename_i h; exact not_not.1 h
  let st1 : MultiGpState E := ⟨ms, din, dout, mf, ys, fun c => if c < dout then dataMeanOf ys c else 0⟩
  have hmean : ∀ v c, meanAt st1 v c = meanFn mf ys dout v c := fun v c => meanAt_eq (st := st1) rfl hd.ys_ne rfl v c
  have hobs : ∀ i, List.zipWith (fun x y => [at' y i - meanAt st1 x i]) xs ys = centred (meanFn mf ys dout) xs ys i := by
    intro i
    unfold centred
    congr 1
    funext x y
    rw [hmean]
  have htr : ∀ (c : Nat) g, ms[c]? = some g → ∃ A, Tracks E.sub A g := by
    intro c g hg
    rw [← hms] at hg
    split at hg
    · rw [newModels_get hg]; exact ⟨_, track_newDims _ _ _⟩
    · obtain ⟨A, h, -⟩ := M.subs c g hg; exact ⟨A, h⟩
  have hsub : ∀ c g, ms[c]? = some g → ∃ g', Gp.compute (junk.mat c) g xs (centred (meanFn mf ys dout) xs ys c) ck = some g' ∧
      Tracks E.sub ⟨xs, centred (meanFn mf ys dout) xs ys c, ck, true, ck, ck⟩ g' ∧
      g'.kf = (if g.dimIn = din then g.kf else BaseK.mk' E.KP din) ∧ g'.dimIn = din := by
    intro c g hg
    obtain ⟨A, T⟩ := htr c g hg
    obtain ⟨g', h1, h2, h3, -, h4, -⟩ := track_compute (sub_lawful hE) (junk.mat c) T (centred_dataset hd c) ck
    exact ⟨g', h1, h2, h3, h4⟩
  obtain ⟨ms', hms'⟩ := loopM_ok (f := fun i g => Gp.compute (junk.mat i) g xs (List.zipWith (fun x y => [at' y i - meanAt st1 x i]) xs ys) ck) (i := 0)
    (l := ms) (by
      intro n g hg
      obtain ⟨g', h, -⟩ := hsub n g hg
      refine ⟨g', ?_⟩
      simp only [Nat.zero_add]
      rw [hobs]; exact h)
  obtain ⟨hlen', hget⟩ := loopM_spec hms'
  refine ⟨{ st1 with models := ms' }, ?_, ?_, ?_, rfl, rfl, by show ms'.length = dout; rw [hlen', hl], ?_, ?_⟩
  · exact congrArg _ hms'
  · refine ⟨rfl, fun h => absurd h hd.nonempty, fun _ => ⟨din, dout, hd, rfl, rfl, by show ms'.length = dout; rw [hlen', hl], rfl⟩, ?_, ?_, ?_⟩
    · right
      show MReach E.M (dout : Int).toNat mf
      rw [Int.toNat_natCast, ← hmf]
      split
      · exact .new
      · rename_i h
        have h := not_not.1 h
        rcases M.reach with h' | h'
        · omega
        · rw [h, Int.toNat_natCast] at h'; exact h'
    · show (ms'.length : Int) = max (dout : Int) 0
      rw [hlen', hl]; omega
    · intro c g' hg'
      obtain ⟨g, hg, hf⟩ := hget c g' hg'
      obtain ⟨g2, h1, h2, -⟩ := hsub c g hg
      simp only [Nat.zero_add] at hf
      rw [hobs, h1] at hf
      cases hf
      refine ⟨_, h2, rfl, id, fun _ => rfl, id, id, fun _ => ?_, fun _ => ⟨din, centred_dataset hd c⟩⟩
      show centred (meanFn mf ys dout) xs ys c = centred (meanFn mf ys (dout : Int).toNat) xs ys c
      rw [Int.toNat_natCast]
  · show mf = _
    rw [← hmf]
    by_cases h : st.dimOut = (dout : Int)
    · rw [if_neg (not_not.2 h), if_pos h]
    · rw [if_pos h, if_neg h]
  · intro hlm c g' hg'
    obtain ⟨g, hg, hf⟩ := hget c g' hg'
    obtain ⟨g2, h1, -, h3, h4⟩ := hsub c g hg
    simp only [Nat.zero_add] at hf
    rw [hobs, h1] at hf
    cases hf
    refine ⟨?_, h4⟩
    rw [h3]
    rcases hlm with hlm | hlm
    · have : ms = st.models := by rw [← hms, if_neg (not_not.2 hlm)]
      unfold kernAt
      rw [← this, hg]
    · rw [kernAt_nil hlm]
      have : ms = newModels E junk.num din dout := by
        rw [← hms, if_pos]
        rw [hlm]; have := hd.dout_pos; simp; omega
      rw [this] at hg
      rw [newModels_get hg]
      split <;> rfl
  · intro hlm c g' hg'
    obtain ⟨g, hg, hf⟩ := hget c g' hg'
    have : ms = st.models := by rw [← hms, if_neg (not_not.2 hlm)]
    rw [this] at hg
    simp only [Nat.zero_add] at hf
    rw [hobs] at hf
    exact ⟨g, _, hg, centred_dataset hd c, hf⟩

theorem compute_inv {st st' : MultiGpState E} {junk : MultiJunk} {xs ys : List (List ℝ)} {ck : Bool} (h : compute junk st xs ys ck = some st') :
    ∃ din dout, DataSet xs ys din dout := by
  unfold compute at h
  split at h
  · cases h
  · rename_i hlen
    simp only at h
    split at h
    · cases h
    · rename_i hdo
      rw [Option.bind_eq_some_iff] at h
      obtain ⟨avg, havg, h⟩ := h
      rw [Option.map_eq_some_iff] at h
      obtain ⟨ms', hl, -⟩ := h
      obtain ⟨h1, h2⟩ := loopM_spec hl
      have hlm : (if st.models.length ≠ (ys.headD []).length then newModels E junk.num (xs.headD []).length (ys.headD []).length else st.models).length
          = (ys.headD []).length := by
        split
        · exact newModels_length
        · rename_i h; exact not_not.1 h
      rw [hlm] at h1
      have hpos : 0 < ms'.length := by omega
      obtain ⟨g, -, hg⟩ := h2 0 ms'[0] (List.getElem?_eq_getElem hpos)
      obtain ⟨hne, hsame, hin, -, hdp, -⟩ := compute_dataset _ hg
      push Not at hlen
      refine ⟨(xs.headD []).length, (ys.headD []).length, hne, hlen.2.2.symm, ?_, averageObs_inv havg, ?_, by omega⟩
      · exact hin
      · exact hdp

theorem MTracks.nil {B : MgAbs} {st : MultiGpState E} (M : MTracks E B st) (h : st.models = []) : B.xs = [] ∧ st.dimOut ≤ 0 := by
  have hl := M.len
  rw [h] at hl
  simp only [List.length_nil] at hl
  refine ⟨?_, by omega⟩
  by_contra hne
  obtain ⟨din, dout, hd, -, h2, -⟩ := M.ne hne
  have := hd.dout_pos
  omega

theorem MTracks.dims {B : MgAbs} {st : MultiGpState E} (M : MTracks E B st) {din dout : Nat} (hd : DataSet B.xs B.ys din dout) :
    st.dimIn = din ∧ st.dimOut = dout ∧ st.models.length = dout ∧ st.meanObs = fun c => if c < dout then dataMeanOf B.ys c else 0 := by
  obtain ⟨din', dout', hd', h⟩ := M.ne hd.nonempty
  obtain ⟨rfl, rfl⟩ := hd.dims hd'
  exact h

/-- Adding a sample of the right dimensions succeeds. -/
theorem add_ok (hE : LawfulEnv E) {B : MgAbs} {st : MultiGpState E} (M : MTracks E B st) (junk : MultiJunk) {x y : List ℝ} {din dout : Nat}
    (hd : DataSet (B.xs ++ [x]) (B.ys ++ [y]) din dout) (hc : st.models = [] ∨ (st.dimIn = din ∧ st.dimOut = dout)) {ind : Bool}
    (hind : ind = true → E.M.IgnoresData) :
    ∃ st', addSample junk st x y = some st' ∧ MTracks E (B.step ind (.add x y)) st' ∧
      st'.mf = (if st.models = [] then E.M.new dout else st.mf) ∧ st'.dimIn = din ∧ st'.dimOut = dout ∧ st'.models.length = dout ∧
      (∀ (c : Nat) (g' : GpState E.sub), st'.models[c]? = some g' → g'.kf = kernAt st din c ∧ g'.dimIn = din ∧
        (B.r = true → ∃ A : GpAbs, Tracks E.sub A g' ∧ A.xs = B.xs ++ [x] ∧ A.m = true ∧ (B.k = true → A.k = true ∧ A.a = true) ∧
          A.ys = centred (meanFn st'.mf B.ys dout) B.xs B.ys c ++ [[at' y c - meanFn st'.mf (B.ys ++ [y]) dout x c]])) := by
  have hx : x.length = din := hd.inputs x (by simp)
  have hy : y.length = dout := hd.outputs y (by simp)
  -- the state after the size checks
  obtain ⟨ms, mf, hst, hl, hmf, hmr, htr, hkeep⟩ : ∃ (ms : List (GpState E.sub)) (mf : E.M.St),
      (if st.models.length = 0 then
        some (if st.dimOut ≠ (y.length : Int) then { ({ st with dimIn := (x.length : Int) } : MultiGpState E) with dimOut := (y.length : Int), models := newModels E junk.num x.length y.length, mf := E.M.new y.length } else { st with dimIn := (x.length : Int) })
      else if (x.length : Int) = st.dimIn ∧ (y.length : Int) = st.dimOut then some st else none)
        = some (⟨ms, din, dout, mf, st.obs, st.meanObs⟩ : MultiGpState E) ∧ ms.length = dout ∧
      mf = (if st.models = [] then E.M.new dout else st.mf) ∧ MReach E.M dout mf ∧
      (∀ (c : Nat) g, ms[c]? = some g → ∃ A, Tracks E.sub A g ∧ A.xs = B.xs ∧ (B.k = true → A.k = true) ∧
        (B.r = true → A.ys = centred (meanFn mf B.ys dout) B.xs B.ys c) ∧ (B.xs ≠ [] → ∃ din, DataSet A.xs A.ys din 1)) ∧
      (∀ (c : Nat) g, ms[c]? = some g → kernAt st din c = if g.dimIn = din then g.kf else BaseK.mk' E.KP din) := by
    by_cases hm : st.models = []
    · obtain ⟨hxe, hdo⟩ := M.nil hm
      have hye := M.empty hxe
      have hdp := hd.dout_pos
      refine ⟨newModels E junk.num din dout, E.M.new dout, ?_, newModels_length, by rw [if_pos hm], .new, ?_, ?_⟩
      · rw [if_pos (by rw [hm]; rfl), if_pos (by omega), hx, hy]
      · intro c g hg
        rw [newModels_get hg]
        refine ⟨_, track_newDims _ _ _, hxe.symm, fun _ => rfl, fun _ => ?_, fun h => absurd hxe h⟩
        rw [hxe]; rfl
      · intro c g hg
        rw [kernAt_nil hm, newModels_get hg]
        split <;> rfl
    · obtain ⟨h1, h2⟩ := hc.resolve_left hm
      refine ⟨st.models, st.mf, ?_, ?_, by rw [if_neg hm], ?_, ?_, fun c g hg => by unfold kernAt; rw [hg]⟩
      · rw [if_neg (by simpa using hm), if_pos ⟨by rw [hx, h1], by rw [hy, h2]⟩, ← h1, ← h2]
      · have := M.len; rw [h2] at this; omega
      · rcases M.reach with h | h
        · omega
        · rw [h2, Int.toNat_natCast] at h; exact h
      · intro c g hg
        obtain ⟨A, T, e1, e2, -, -, -, e6, e7⟩ := M.subs c g hg
        rw [h2, Int.toNat_natCast] at e6
        exact ⟨A, T, e1, e2, e6, e7⟩
  unfold addSample
  simp only
  rw [hst, Option.bind_some]
  simp only
  rw [if_neg (by have := hd.dout_pos; omega), Int.toNat_natCast, M.obs, averageObs_ok hd.outputs, Option.bind_some, if_neg (by rw [hl]; exact not_not.2 rfl)]
  let st1 : MultiGpState E := ⟨ms, din, dout, mf, B.ys ++ [y], fun c => if c < dout then dataMeanOf (B.ys ++ [y]) c else 0⟩
  have hmean : ∀ v c, meanAt st1 v c = meanFn mf (B.ys ++ [y]) dout v c := fun v c => meanAt_eq (st := st1) rfl hd.ys_ne rfl v c
  have hsame : B.ys.length = B.xs.length := by have := hd.same; simpa using this
  have hsub : ∀ (c : Nat) g, ms[c]? = some g → ∃ (g' : GpState E.sub) (A : GpAbs), Gp.addSample (junk.mat c) g x [at' y c - meanAt st1 x c] = some g' ∧
      A.xs = B.xs ∧ (B.k = true → A.k = true) ∧ (B.r = true → A.ys = centred (meanFn mf B.ys dout) B.xs B.ys c) ∧
      (B.xs = [] → A.ys = []) ∧ DataSet (A.xs ++ [x]) (A.ys ++ [[at' y c - meanAt st1 x c]]) din 1 ∧
      Tracks E.sub (A.step (.add x [at' y c - meanAt st1 x c])) g' ∧ g'.kf = (if g.dimIn = din then g.kf else BaseK.mk' E.KP din) ∧ g'.dimIn = din := by
    intro c g hg
    obtain ⟨A, T, e1, e2, e3, e4⟩ := htr c g hg
    have hnil : B.xs = [] → A.ys = [] := fun h => (T.empty (by rw [e1, h])).2.2
    have hds : DataSet (A.xs ++ [x]) (A.ys ++ [[at' y c - meanAt st1 x c]]) din 1 := by
      rw [e1]
      have hsl : A.ys.length = B.xs.length ∧ ∀ y ∈ A.ys, y.length = 1 := by
        by_cases hb : B.xs = []
        · rw [hnil hb, hb]; simp
        · obtain ⟨d, h⟩ := e4 hb
          exact ⟨by rw [h.same, e1], h.outputs⟩
      refine ⟨by simp, by simp [hsl.1], hd.inputs, ?_, hd.din_pos, Nat.one_pos⟩
      intro z hz
      rcases List.mem_append.1 hz with hz | hz
      · exact hsl.2 z hz
      · rw [List.mem_singleton.1 hz]; rfl
    obtain ⟨g', h1, h2, h3, -, h4, -⟩ := track_add (sub_lawful hE) (junk.mat c) T hds
    exact ⟨g', A, h1, e1, e2, e3, hnil, hds, h2, h3, h4⟩
  obtain ⟨ms', hms'⟩ := loopM_ok (f := fun i g => Gp.addSample (junk.mat i) g x [at' y i - meanAt st1 x i]) (i := 0) (l := ms) (by
      intro n g hg
      obtain ⟨g', A, h, -⟩ := hsub n g hg
      exact ⟨g', by simp only [Nat.zero_add]; exact h⟩)
  obtain ⟨hlen', hget⟩ := loopM_spec hms'
  refine ⟨{ st1 with models := ms' }, congrArg _ hms', ?_, hmf, rfl, rfl, by show ms'.length = dout; rw [hlen', hl], ?_⟩
  · refine ⟨rfl, fun h => absurd h (by simp [MgAbs.step]), fun _ => ⟨din, dout, hd, rfl, rfl, by show ms'.length = dout; rw [hlen', hl], rfl⟩, ?_, ?_, ?_⟩
    · right
      show MReach E.M (dout : Int).toNat mf
      rw [Int.toNat_natCast]; exact hmr
    · show (ms'.length : Int) = max (dout : Int) 0
      rw [hlen', hl]; omega
    · intro c g' hg'
      obtain ⟨g, hg, hf⟩ := hget c g' hg'
      obtain ⟨g2, A, h1, e1, e2, e3, e4, hds, h2, -⟩ := hsub c g hg
      simp only [Nat.zero_add] at hf
      rw [h1] at hf
      cases hf
      refine ⟨_, h2, by show A.xs ++ [x] = B.xs ++ [x]; rw [e1], e2, fun _ => rfl, e2, fun _ => rfl, fun hr => ?_, fun _ => ⟨din, hds⟩⟩
      show A.ys ++ [[at' y c - meanAt st1 x c]] = centred (meanFn mf (B.ys ++ [y]) (dout : Int).toNat) (B.xs ++ [x]) (B.ys ++ [y]) c
      rw [Int.toNat_natCast, centred_append hsame, hmean]
      congr 1
      by_cases hb : B.xs = []
      · rw [e4 hb, hb]; rfl
      · have hr : (B.r && ind || B.xs.isEmpty) = true := hr
        rw [List.isEmpty_eq_false_iff.2 hb, Bool.or_false, Bool.and_eq_true] at hr
        rw [e3 hr.1]
        exact centred_congr fun v => hind hr.2 _ _ _ _ _
  · intro c g' hg'
    obtain ⟨g, hg, hf⟩ := hget c g' hg'
    obtain ⟨g2, A, h1, e1, e2, e3, -, -, h2, h3, h4⟩ := hsub c g hg
    simp only [Nat.zero_add] at hf
    rw [h1] at hf
    cases hf
    refine ⟨by rw [h3, hkeep c g hg], h4, fun hr => ⟨_, h2, by show A.xs ++ [x] = _; rw [e1], rfl, fun hk => ⟨e2 hk, e2 hk⟩, ?_⟩⟩
    show A.ys ++ [[at' y c - meanAt st1 x c]] = _
    rw [e3 hr, hmean]

theorem add_inv (hE : LawfulEnv E) {B : MgAbs} {st st' : MultiGpState E} (M : MTracks E B st) {junk : MultiJunk} {x y : List ℝ}
    (h : addSample junk st x y = some st') :
    DataSet (B.xs ++ [x]) (B.ys ++ [y]) x.length y.length ∧ (st.models = [] ∨ (st.dimIn = x.length ∧ st.dimOut = y.length)) := by
  unfold addSample at h
  simp only at h
  rw [Option.bind_eq_some_iff] at h
  obtain ⟨st1, h1, h⟩ := h
  by_cases hd0 : st1.dimOut ≤ 0
  · rw [if_pos hd0] at h; cases h
  rw [if_neg hd0, Option.bind_eq_some_iff] at h
  obtain ⟨avg, havg, h⟩ := h
  by_cases hl : (st1.models.length : Int) ≠ st1.dimOut
  · rw [if_pos hl] at h; cases h
  rw [if_neg hl, Option.map_eq_some_iff] at h
  obtain ⟨ms', hms', -⟩ := h
  obtain ⟨hlen', hget⟩ := loopM_spec hms'
  have hl := not_not.1 hl
  have hpos : 0 < ms'.length := by omega
  obtain ⟨g, hg, hadd⟩ := hget 0 ms'[0] (List.getElem?_eq_getElem hpos)
  have hcases : (st.models = [] ∧ st1.dimOut = y.length ∧ ∃ u, g = Gp.newDims E.sub u x.length 1) ∨
      (st.models ≠ [] ∧ st1 = st ∧ st.dimIn = x.length ∧ st.dimOut = y.length) := by
    by_cases hm : st.models = []
    · left
      rw [if_pos (by rw [hm]; rfl)] at h1
      have := (M.nil hm).2
      by_cases hc : st.dimOut ≠ (y.length : Int)
      · rw [if_pos hc] at h1
        cases h1
        exact ⟨hm, rfl, _, newModels_get hg⟩
      · rw [if_neg hc] at h1
        cases h1
        exact absurd this hd0
    · right
      rw [if_neg (by simpa using hm)] at h1
      split at h1
      · rename_i hh; cases h1; exact ⟨hm, rfl, hh.1.symm, hh.2.symm⟩
      · cases h1
  rcases hcases with ⟨hm, hdo, u, rfl⟩ | ⟨hm, rfl, h2, h3⟩
  · obtain ⟨hxe, -⟩ := M.nil hm
    have hye := M.empty hxe
    have hds := addSample_dataset _ (track_newDims (E := E.sub) u x.length 1) hadd
    refine ⟨?_, Or.inl hm⟩
    rw [hxe, hye]
    exact ⟨by simp, rfl, by simp, by simp, hds.din_pos, by omega⟩
  · obtain ⟨A, T, e1, -⟩ := M.subs 0 g hg
    have hds := addSample_dataset _ T hadd
    rw [e1] at hds
    have hav := averageObs_inv havg
    rw [M.obs] at hav
    refine ⟨⟨by simp, ?_, hds.inputs, ?_, hds.din_pos, by omega⟩, Or.inr ⟨h2, h3⟩⟩
    · by_cases hb : B.xs = []
      · rw [hb, M.empty hb]; rfl
      · obtain ⟨_, _, hd, -⟩ := M.ne hb
        simp [hd.same]
    · intro z hz
      rw [hav z hz, h3, Int.toNat_natCast]

/-- A call that only changes sub-models, keeping their data. -/
theorem MTracks.of_subs {B B' : MgAbs} {st : MultiGpState E} (M : MTracks E B st) {ms : List (GpState E.sub)} (hxs : B'.xs = B.xs) (hys : B'.ys = B.ys)
    (hlen : ms.length = st.models.length)
    (hs : ∀ c g, ms[c]? = some g → SubOK E B' (meanFn st.mf B.ys st.dimOut.toNat) c g) : MTracks E B' { st with models := ms } := by
  refine ⟨by rw [hys]; exact M.obs, by rw [hxs, hys]; exact M.empty, ?_, M.reach, ?_, ?_⟩
  · rw [hxs, hys]
    intro h
    obtain ⟨din, dout, h1, h2, h3, h4, h5⟩ := M.ne h
    exact ⟨din, dout, h1, h2, h3, by show ms.length = dout; rw [hlen, h4], h5⟩
  · show (ms.length : Int) = _; rw [hlen]; exact M.len
  · rw [hys]; exact hs

theorem MTracks.samples {B : MgAbs} {st : MultiGpState E} (M : MTracks E B st) {c : Nat} {g : GpState E.sub} (hg : st.models[c]? = some g) :
    g.samples = B.xs := by
  obtain ⟨A, T, e, -⟩ := M.subs c g hg
  rw [T.samples, e]

theorem recompute_inv (hE : LawfulEnv E) {B : MgAbs} {st st' : MultiGpState E} (M : MTracks E B st) {junk : MultiJunk} {um uk ind : Bool}
    (h : recompute junk st um uk = some st') : MTracks E (B.step ind (.recompute um uk)) st' := by
  unfold recompute at h
  split at h
  · rename_i hm
    cases h
    have : B.step ind (.recompute um uk) = B := by simp [MgAbs.step, (M.nil hm).1]
    rw [this]; exact M
  · rename_i g l hm
    have hg : st.models[0]? = some g := by rw [hm]; rfl
    by_cases hum : um = true
    · subst hum
      rw [if_pos rfl, M.samples hg, M.obs] at h
      obtain ⟨din, dout, hd⟩ := compute_inv h
      obtain ⟨st2, h1, h2, -⟩ := compute_ok hE M junk hd uk ind
      rw [h1] at h; cases h
      have : B.step ind (.recompute true uk) = B.step ind (.compute B.xs B.ys uk) := by
        simp [MgAbs.step, List.isEmpty_eq_false_iff.2 hd.nonempty]
      rw [this]; exact h2
    · have hum : um = false := by simpa using hum
      subst hum
      rw [if_neg (by simp)] at h
      by_cases hl : (st.models.length : Int) ≠ st.dimOut
      · rw [if_pos hl] at h; cases h
      rw [if_neg hl, Option.map_eq_some_iff] at h
      obtain ⟨ms, hms, rfl⟩ := h
      obtain ⟨hlen, hget⟩ := loopM_spec hms
      -- there is data, or a sub-model would have failed
      have hne : B.xs ≠ [] := by
        have : 0 < ms.length := by rw [hlen, hm]; simp
        obtain ⟨g0, hg0, hf⟩ := hget 0 ms[0] (List.getElem?_eq_getElem this)
        rw [← M.samples hg0]
        intro he
        unfold Gp.recompute at hf
        rw [if_pos he] at hf; cases hf
      have hst : B.step ind (.recompute false uk) = { B with k := B.k || uk, a := B.m && (B.k || uk), i := B.i || uk } := by
        simp [MgAbs.step, hne]
      rw [hst]
      refine M.of_subs rfl rfl hlen ?_
      intro c g' hg'
      obtain ⟨g0, hg0, hf⟩ := hget c g' hg'
      obtain ⟨A, T, e1, e2, e3, -, e5, e6, e7⟩ := M.subs c g0 hg0
      have T' := (track_recompute (sub_lawful hE) _ T hf).1
      refine ⟨_, T', e1, ?_, ?_, ?_, ?_, e6, e7⟩
      · intro hh
        show (A.k || uk) = true
        rcases Bool.or_eq_true_iff.1 hh with h | h
        · rw [e2 h]; rfl
        · rw [h, Bool.or_true]
      · intro hh
        show (A.m || false) = true
        rw [e3 hh]; rfl
      · intro hh
        obtain ⟨hh1, hh2⟩ := (Bool.and_eq_true _ _).mp hh
        show ((A.m || false) && (A.k || uk)) = true
        rw [e3 hh1]
        rcases Bool.or_eq_true_iff.1 hh2 with h | h
        · rw [e2 h]; rfl
        · rw [h, Bool.or_true]; rfl
      · intro hh
        show (A.i || uk) = true
        rcases Bool.or_eq_true_iff.1 hh with h | h
        · rw [e5 h]; rfl
        · rw [h, Bool.or_true]

theorem setMean_tracks {B : MgAbs} {st : MultiGpState E} (M : MTracks E B st) {p : List ℝ} (hp : E.M.hSize st.mf ≤ p.length) (ind : Bool) :
    MTracks E (B.step ind (.setMeanParams p)) (setMeanParams st p) := by
  refine ⟨M.obs, M.empty, M.ne, ?_, M.len, ?_⟩
  · rcases M.reach with h | h
    · exact Or.inl h
    · exact Or.inr (.set p h hp)
  · intro c g hg
    obtain ⟨A, T, e1, e2, e3, e4, e5, e6, e7⟩ := M.subs c g hg
    refine ⟨A, T, e1, e2, e3, e4, e5, fun hr => ?_, e7⟩
    have hr : (B.r && B.xs.isEmpty) = true := hr
    rw [Bool.and_eq_true] at hr
    have hx := List.isEmpty_iff.1 hr.2
    rw [e6 hr.1]
    show centred _ B.xs B.ys c = centred _ B.xs B.ys c
    rw [hx]; rfl

theorem setKernel_inv {B : MgAbs} {st st' : MultiGpState E} (M : MTracks E B st) {i : Nat} {p : List ℝ} {ind : Bool}
    (h : setKernelParams st i p = some st') : MTracks E (B.step ind (.setKernelParams i p)) st' := by
  unfold setKernelParams at h
  rw [Option.bind_eq_some_iff] at h
  obtain ⟨g0, hg0, h⟩ := h
  by_cases hp : g0.kf.hParamsSize E.KP ≤ p.length
  swap
  · rw [if_neg hp] at h; cases h
  rw [if_pos hp] at h
  cases h
  refine M.of_subs rfl rfl (by simp) ?_
  intro c g hg
  by_cases hc : i = c
  · subst hc
    obtain ⟨hi, -⟩ := List.getElem?_eq_some_iff.1 hg0
    rw [List.getElem?_set_self hi] at hg
    cases hg
    obtain ⟨A, T, e1, e2, e3, e4, e5, e6, e7⟩ := M.subs i g0 hg0
    refine ⟨_, track_setK T p hp, e1, ?_, e3, ?_, ?_, e6, e7⟩
    all_goals
      intro hh
      obtain ⟨hh1, hh2⟩ := (Bool.and_eq_true _ _).mp hh
    · show (A.k && A.xs.isEmpty) = true; rw [e1, e2 hh1, hh2]; rfl
    · show (A.a && A.xs.isEmpty) = true; rw [e1, e4 hh1, hh2]; rfl
    · show (A.i && A.xs.isEmpty) = true; rw [e1, e5 hh1, hh2]; rfl
  · rw [List.getElem?_set_ne hc] at hg
    obtain ⟨A, T, e1, e2, e3, e4, e5, e6, e7⟩ := M.subs c g hg
    exact ⟨A, T, e1, fun h => e2 ((Bool.and_eq_true _ _).mp h).1, e3, fun h => e4 ((Bool.and_eq_true _ _).mp h).1, fun h => e5 ((Bool.and_eq_true _ _).mp h).1, e6, e7⟩

theorem upd_tracks (hE : LawfulEnv E) {A : GpAbs} {s u : GpState E} (T : Tracks E A s) {junk : Nat → Nat → ℝ} {p : List ℝ} (h : updKernel s junk p = some u) :
    A.xs ≠ [] ∧ Tracks E ⟨A.xs, A.ys, true, A.m, A.m, true⟩ u := by
  unfold updKernel at h
  by_cases hp : s.kf.hParamsSize E.KP ≤ p.length
  swap
  · rw [if_neg hp] at h; cases h
  rw [if_pos hp] at h
  have T1 := track_setK T p hp
  refine ⟨?_, ?_⟩
  · intro he
    unfold Gp.recompute at h
    rw [if_pos (by rw [T1.samples]; exact he)] at h; cases h
  · have T2 := (track_recompute hE junk T1 h).1
    have : (A.step (.setKernelParams p)).step (.recompute false true) = ⟨A.xs, A.ys, true, A.m, A.m, true⟩ := by simp [GpAbs.step]
    rw [this] at T2; exact T2

theorem hp_tracks (hE : LawfulEnv E) {A : GpAbs} {s u : GpState E} (T : Tracks E A s) {O : Optz XR} {J : List ℝ → Nat → Nat → ℝ} {j : Nat → Nat → ℝ} {loo : Bool}
    (h : (if loo then kernelLooOpt O J j s else kernelLFOpt O J j s) = some u) :
    A.xs ≠ [] ∧ Tracks E ⟨A.xs, A.ys, true, A.m, A.m, true⟩ u := by
  cases loo
  · obtain ⟨q, u', r, h1, h2, rfl⟩ := hpRun_inv h
    obtain ⟨hne, T'⟩ := upd_tracks hE T h1
    exact ⟨hne, track_step hE (fun _ _ => 0) T' (op := .computeLogLik) trivial (by simp [Gp.step, h2])⟩
  · obtain ⟨q, u', r, h1, h2, rfl⟩ := hpRun_inv h
    obtain ⟨hne, T'⟩ := upd_tracks hE T h1
    exact ⟨hne, track_step hE (fun _ _ => 0) T' (op := .computeLogLoo) trivial (by simp [Gp.step, h2])⟩

theorem hpOpt_inv (hE : LawfulEnv E) {B : MgAbs} {st st' : MultiGpState E} (M : MTracks E B st) {junk : MultiJunk} {loo ind : Bool} {O : Nat → Optz XR}
    {J : Nat → List ℝ → Nat → Nat → ℝ} (h : step st (.hpOpt loo O J) junk = some st') : MTracks E (B.step ind (.hpOpt loo O J)) st' := by
  have h : parallelOpt (fun i g => if loo then kernelLooOpt (O i) (J i) (junk.mat i) g else kernelLFOpt (O i) (J i) (junk.mat i) g) st = some st' := by
    cases loo <;> exact h
  unfold parallelOpt at h
  rw [Option.map_eq_some_iff] at h
  obtain ⟨ms, hms, rfl⟩ := h
  obtain ⟨hlen, hget⟩ := loopM_spec hms
  by_cases hm : st.models = []
  · have : B.step ind (.hpOpt loo O J) = B := by simp [MgAbs.step, (M.nil hm).1]
    rw [this]
    have : ms = [] := by rw [hm] at hlen; exact List.length_eq_zero_iff.1 hlen
    rw [this, ← hm]; exact M
  · have hsub : ∀ (c : Nat) g', ms[c]? = some g' → ∃ (g : GpState E.sub) (A : GpAbs), st.models[c]? = some g ∧ Tracks E.sub A g ∧ A.xs = B.xs ∧ (B.m = true → A.m = true) ∧
        (B.r = true → A.ys = centred (meanFn st.mf B.ys st.dimOut.toNat) B.xs B.ys c) ∧ (B.xs ≠ [] → ∃ din, DataSet A.xs A.ys din 1) ∧
        A.xs ≠ [] ∧ Tracks E.sub ⟨A.xs, A.ys, true, A.m, A.m, true⟩ g' := by
      intro c g' hg'
      obtain ⟨g, hg, hf⟩ := hget c g' hg'
      obtain ⟨A, T, e1, -, e3, -, -, e6, e7⟩ := M.subs c g hg
      obtain ⟨h1, h2⟩ := hp_tracks (sub_lawful hE) T hf
      exact ⟨g, A, hg, T, e1, e3, e6, e7, h1, h2⟩
    have hne : B.xs ≠ [] := by
      have : 0 < ms.length := by rw [hlen]; exact List.length_pos_iff.2 hm
      obtain ⟨g, A, -, -, e1, -, -, -, h, -⟩ := hsub 0 ms[0] (List.getElem?_eq_getElem this)
      rw [← e1]; exact h
    have hst : B.step ind (.hpOpt loo O J) = { B with k := true, a := B.m, i := true } := by simp [MgAbs.step, hne]
    rw [hst]
    refine M.of_subs rfl rfl hlen ?_
    intro c g' hg'
    obtain ⟨g, A, -, -, e1, e3, e6, e7, -, h2⟩ := hsub c g' hg'
    exact ⟨_, h2, e1, fun _ => rfl, e3, e3, fun _ => rfl, e6, e7⟩

theorem load_inv (hE : LawfulEnv E) {B : MgAbs} {st st' : MultiGpState E} {junk : MultiJunk} {a : Saved} {r ind : Bool}
    (hs : (Op.load a r).Sane) (h : load junk st a r = some st') : MTracks E (B.step ind (.load a r)) st' := by
  obtain ⟨xs, din, dout, hd, hdims, hl, hsub⟩ := hs
  unfold load at h
  simp only at h
  rw [hdims] at h
  simp only [Int.toNat_natCast] at h
  rw [averageObs_ok hd.outputs, Option.bind_some, Option.bind_eq_some_iff] at h
  obtain ⟨mf, hmf, h⟩ := h
  rw [Option.bind_eq_some_iff] at h
  obtain ⟨ms, hms, h⟩ := h
  obtain ⟨hlen, hget⟩ := loopM_spec hms
  have hlen : ms.length = dout := by rw [hlen]; simp [resizeModels]
  have hmr : MReach E.M dout mf := by
    split at hmf
    · rw [Option.bind_eq_some_iff] at hmf
      obtain ⟨p, -, hmf⟩ := hmf
      split at hmf
      · rename_i hp; cases hmf; exact .set p .new hp.ge
      · cases hmf
    · cases hmf; exact .new
  have hx0 : (a.subs.headD ⟨none, none, [], .empty, .empty, .empty⟩).samples = xs := by
    obtain ⟨b, l, hb⟩ := List.exists_cons_of_ne_nil (l := a.subs) (by intro e; rw [e] at hl; have := hd.dout_pos; simp at hl; omega)
    rw [hb]
    exact (hsub b (by rw [hb]; simp)).1
  let st1 : MultiGpState E := ⟨ms, din, dout, mf, a.observations, fun c => if c < dout then dataMeanOf a.observations c else 0⟩
  have h : (if r then recompute junk st1 true true else some st1) = some st' := h
  have M1 : MTracks E ⟨xs, a.observations, false, false, false, false, false⟩ st1 := by
    refine ⟨rfl, fun h => absurd h hd.nonempty, fun _ => ⟨din, dout, hd, rfl, rfl, hlen, rfl⟩, Or.inr ?_, ?_, ?_⟩
    · show MReach E.M (dout : Int).toNat mf; rw [Int.toNat_natCast]; exact hmr
    · show (ms.length : Int) = max (dout : Int) 0
      rw [hlen]; omega
    · intro c g' hg'
      obtain ⟨g, -, hf⟩ := hget c g' hg'
      rw [Option.bind_eq_some_iff] at hf
      obtain ⟨b, hb, hf⟩ := hf
      have hbm := List.mem_of_getElem? hb
      obtain ⟨hbx, hbd⟩ := hsub b hbm
      have T := track_load (sub_lawful hE) (junk.mat (0 + c)) (A := .init) (r := false) ⟨din, 1, by rw [hbx]; exact hbd⟩ hf
      refine ⟨_, T, hbx, fun h => (by cases h), fun h => (by cases h), fun h => (by cases h), fun h => (by cases h), fun h => (by cases h), fun _ => ⟨din, ?_⟩⟩
      show DataSet b.samples (rowsOf b.observations) din 1
      rw [hbx]; exact hbd
  have hst : B.step ind (.load a r) = ⟨xs, a.observations, r, r, r, r, r⟩ := by
    show MgAbs.mk _ _ _ _ _ _ _ = _
    rw [hx0]
  rw [hst]
  cases r
  · have h : some st1 = some st' := h
    rw [← Option.some.inj h]; exact M1
  · have := recompute_inv (ind := ind) hE M1 h
    simpa [MgAbs.step, hd.nonempty] using this

theorem mtrack_step (hE : LawfulEnv E) {ind : Bool} (hind : ind = true → E.M.IgnoresData) {B : MgAbs} {st st' : MultiGpState E} (M : MTracks E B st)
    {op : Op} (hs : op.Sane) {junk : MultiJunk} (h : step st op junk = some st') : MTracks E (B.step ind op) st' := by
  cases op with
  | compute xs ys ck =>
    have h : compute junk st xs ys ck = some st' := h
    obtain ⟨din, dout, hd⟩ := compute_inv h
    obtain ⟨s, h1, h2, -⟩ := compute_ok hE M junk hd ck ind
    rw [h1] at h; cases h; exact h2
  | add x y =>
    have h : addSample junk st x y = some st' := h
    obtain ⟨hd, hc⟩ := add_inv hE M h
    obtain ⟨s, h1, h2, -⟩ := add_ok hE M junk hd hc hind
    rw [h1] at h; cases h; exact h2
  | recompute um uk => exact recompute_inv hE M h
  | setMeanParams p =>
    have h : (if E.M.hSize st.mf ≤ p.length then some (setMeanParams st p) else none) = some st' := h
    by_cases hp : E.M.hSize st.mf ≤ p.length
    · rw [if_pos hp] at h; cases h; exact setMean_tracks M hp ind
    · rw [if_neg hp] at h; cases h
  | setKernelParams i p => exact setKernel_inv M h
  | hpOpt loo O J => exact hpOpt_inv hE M h
  | load a r => exact load_inv hE hs h

theorem mtrack_run (hE : LawfulEnv E) {ind : Bool} (hind : ind = true → E.M.IgnoresData) : ∀ (ops : List (Op × MultiJunk)) {B : MgAbs} {st st' : MultiGpState E},
    MTracks E B st → (∀ o ∈ ops, o.1.Sane) → run st ops = some st' → MTracks E (B.run ind ops) st' := by
  intro ops
  induction ops with
  | nil => intro B st st' M _ h; cases h; exact M
  | cons o ops ih =>
    intro B st st' M hs h
    obtain ⟨op, junk⟩ := o
    simp only [run, Option.bind_eq_some_iff] at h
    obtain ⟨s, h1, h2⟩ := h
    exact ih (mtrack_step hE hind M (hs _ (by simp)) h1) (fun o ho => hs o (by simp [ho])) h2

theorem mtrack_new : MTracks E .init (new E) := by
  refine ⟨rfl, fun _ => rfl, fun h => absurd rfl h, Or.inl rfl, rfl, ?_⟩
  intro c g hg
  simp [new] at hg

theorem mtrack_newDims (u : Nat → ℝ × ℝ) (din dout : Nat) : MTracks E .init (newDims E u din dout) := by
  refine ⟨rfl, fun _ => rfl, fun h => absurd rfl h, Or.inr ?_, ?_, ?_⟩
  · show MReach E.M (dout : Int).toNat _; rw [Int.toNat_natCast]; exact .new
  · show ((newModels E u din dout).length : Int) = max (dout : Int) 0
    rw [newModels_length]; omega
  · intro c g hg
    rw [newModels_get hg]
    exact ⟨_, track_newDims _ _ _, rfl, fun _ => rfl, fun _ => rfl, fun _ => rfl, fun _ => rfl, fun _ => rfl, fun h => absurd rfl h⟩

theorem _root_.Limbo.MgReach.tracks (hE : LawfulEnv E) {ind : Bool} {B : MgAbs} {st : MultiGpState E} (h : MgReach E ind B st) : MTracks E B st := by
  obtain ⟨hind, ops, start, hs, hsane, hrun, rfl⟩ := h
  refine mtrack_run hE hind ops ?_ hsane hrun
  rcases hs with rfl | ⟨u, din, dout, rfl⟩
  · exact mtrack_new
  · exact mtrack_newDims u din dout

theorem run_append (ops : List (Op × MultiJunk)) (o : Op × MultiJunk) : ∀ st : MultiGpState E, run st (ops ++ [o]) = (run st ops).bind fun s => step s o.1 o.2 := by
  induction ops with
  | nil => intro st; obtain ⟨op, j⟩ := o; simp only [List.nil_append, run]; rw [Option.bind_some]; exact Option.bind_fun_some _
  | cons p ops ih =>
    intro st
    obtain ⟨op, j⟩ := p
    simp only [List.cons_append, run]
    rw [Option.bind_assoc]
    congr 1
    funext s
    exact ih s

theorem _root_.Limbo.MgReach.step {ind : Bool} {B : MgAbs} {st st' : MultiGpState E} (h : MgReach E ind B st) {op : Op} (hs : op.Sane) {junk : MultiJunk}
    (hst : MultiGp.step st op junk = some st') : MgReach E ind (B.step ind op) st' := by
  obtain ⟨hind, ops, start, hstart, hsane, hrun, rfl⟩ := h
  refine ⟨hind, ops ++ [(op, junk)], start, hstart, ?_, ?_, ?_⟩
  · intro o ho
    rcases List.mem_append.1 ho with h | h
    · exact hsane o h
    · rw [List.mem_singleton.1 h]; exact hs
  · rw [run_append, hrun]; exact hst
  · simp [MgAbs.run]

theorem _root_.Limbo.MgReach.new {ind : Bool} (hind : ind = true → E.M.IgnoresData) : MgReach E ind .init (MultiGp.new E) :=
  ⟨hind, [], _, Or.inl rfl, by simp, rfl, rfl⟩

theorem _root_.Limbo.MgReach.newDims {ind : Bool} (hind : ind = true → E.M.IgnoresData) (u : Nat → ℝ × ℝ) (din dout : Nat) :
    MgReach E ind .init (MultiGp.newDims E u din dout) := ⟨hind, [], _, Or.inr ⟨u, din, dout, rfl⟩, by simp, rfl, rfl⟩

end MultiGp

end Limbo
