import Verif.Props.Bo
import Verif.Spec.BoBestLog

/-! **C111**: the logs of the best evaluation so far. -/

namespace Limbo

open Scalar LawfulCmp

variable {α M : Type} [Scalar α]

/-- the pair of the best observation -/
def bestOf (afun : List α → α) (l : List (List α × List α)) : Option (List α × List α) := l[maxElement (l.map fun q => afun q.2)]?

/-- the best pairs after each new pair -/
def bestsOf (afun : List α → α) (b n : List (List α × List α)) : List (Option (List α × List α)) :=
  (List.range n.length).map fun i => bestOf afun (b ++ n.take (i + 1))

theorem bestsOf_snoc (afun : List α → α) (b n : List (List α × List α)) (y : List α × List α) :
    bestsOf afun b (n ++ [y]) = bestsOf afun b n ++ [bestOf afun (b ++ (n ++ [y]))] := by
  unfold bestsOf
  rw [List.length_append, List.length_singleton, List.range_succ, List.map_append, List.map_singleton]
  congr 1
  · refine List.map_congr_left fun i hi => ?_
    rw [List.take_append_of_le_length (by have := List.mem_range.1 hi; omega)]
  · rw [List.take_of_length_le (by simp)]

/-- rows of possibly undefined values -/
def bestRowsO (p : List α × List α → List α) (t : Nat) (bests : List (Option (List α × List α))) : List (LogLine α) :=
  if bests = [] then []
  else (if t = 0 then [.header] else []) ++ bests.mapIdx fun i q => .row ((t + i : Nat) : Int) (q.elim [] p)

theorem bestRowsO_snoc (p : List α × List α → List α) (t : Nat) (l : List (Option (List α × List α))) (q : List α × List α) :
    bestRowsO p t (l ++ [some q]) = bestRowsO p t l ++ ((if ((t + l.length : Nat) : Int) = 0 then [.header] else []) ++ [.row ((t + l.length : Nat) : Int) (p q)]) := by
  unfold bestRowsO
  rw [if_neg (show ¬ (l ++ [some q] = []) by simp), List.mapIdx_concat]
  cases l with
  | nil => simp
  | cons z zs =>
    rw [if_neg (show ¬ (z :: zs = []) by simp), if_neg (show ¬ ((t + (z :: zs).length : Nat) : Int) = 0 by simp; omega)]
    simp

theorem zip_maxElement (afun : List α → α) {s o : List (List α)} (hl : s.length = o.length) :
    (s.zip o).map (fun q => afun q.2) = o.map afun := by
  have h2 := List.map_snd_zip (l₁ := s) (l₂ := o) hl.ge
  conv_rhs => rw [← h2]
  simp [Function.comp_def]

theorem statBest_appends {afun : List α → α} {s : Stat α M} {p : List α × List α → List α} (t : Nat)
    (hs : (s = statBestSamples ∧ p = fun q => q.1) ∨ (s = statBestObservations ∧ p = fun q => q.2) ∨ (s = statBestAggregated ∧ p = fun q => [afun q.2])) :
    StatAppends s afun t fun b n => bestRowsO p t (bestsOf afun b n) := by
  intro st b n y new hl hd ht hnew
  have hne : st.samples.isEmpty = false ∧ st.observations.isEmpty = false := by
    have : (st.samples.zip st.observations).length ≠ 0 := by rw [hd]; simp
    rw [List.length_zip] at this
    constructor
    · cases h : st.samples with
      | nil => rw [h] at this; simp at this
      | cons => rfl
    · cases h : st.observations with
      | nil => rw [h] at this; simp at this
      | cons => rfl
  have key : ∃ v q, bestOf afun (b ++ (n ++ [y])) = some q ∧ p q = v ∧
      new = (if st.totalIterations = 0 then [.header] else []) ++ [.row st.totalIterations v] := by
    have hb : bestOf afun (b ++ (n ++ [y])) = (st.samples.zip st.observations)[maxElement (st.observations.map afun)]? := by
      rw [← hd, bestOf, zip_maxElement afun hl]
    rw [hb]
    rcases hs with ⟨rfl, rfl⟩ | ⟨rfl, rfl⟩ | ⟨rfl, rfl⟩
    · simp only [statBestSamples, hne, Bool.false_eq_true, if_false, logBest] at hnew
      split at hnew
      · cases hnew
      next v hv =>
        obtain ⟨hi, rfl⟩ := List.getElem?_eq_some_iff.1 (show st.samples[maxElement (st.observations.map afun)]? = some v from hv)
        exact ⟨_, _, List.getElem?_eq_getElem (by rw [List.length_zip]; omega), by rw [List.getElem_zip], (Option.some.inj hnew).symm⟩
    · simp only [statBestObservations, hne, Bool.false_eq_true, if_false, logBest] at hnew
      split at hnew
      · cases hnew
      next v hv =>
        obtain ⟨hi, rfl⟩ := List.getElem?_eq_some_iff.1 (show st.observations[maxElement (st.observations.map afun)]? = some v from hv)
        exact ⟨_, _, List.getElem?_eq_getElem (by rw [List.length_zip]; omega), by rw [List.getElem_zip], (Option.some.inj hnew).symm⟩
    · simp only [statBestAggregated, hne, Bool.false_eq_true, if_false, logBest] at hnew
      split at hnew
      · cases hnew
      next v hv =>
        obtain ⟨w, hw, rfl⟩ := Option.map_eq_some_iff.1 hv
        obtain ⟨hi, rfl⟩ := List.getElem?_eq_some_iff.1 (show st.observations[maxElement (st.observations.map afun)]? = some w from hw)
        exact ⟨_, _, List.getElem?_eq_getElem (by rw [List.length_zip]; omega), by rw [List.getElem_zip], (Option.some.inj hnew).symm⟩
  obtain ⟨v, q, h1, rfl, rfl⟩ := key
  have hlen : (bestsOf afun b n).length = n.length := by simp [bestsOf]
  show bestRowsO p t (bestsOf afun b (n ++ [y])) = _
  rw [bestsOf_snoc, h1, bestRowsO_snoc, hlen, ht]

variable [LawfulCmp α]

theorem bestOf_first {afun : List α → α} {l : List (List α × List α)} (hne : l ≠ []) (hnan : ∀ q ∈ l, isNaN (afun q.2) = false) :
    ∃ q, bestOf afun l = some q ∧ IsFirstBest afun l q := by
  obtain ⟨m, h1, h2, h3⟩ := maxElement_spec (l.map fun q => afun q.2) (by simpa using hne)
    (by intro x hx; obtain ⟨v, hv, rfl⟩ := List.mem_map.1 hx; exact hnan v hv)
  rw [List.getElem?_map, Option.map_eq_some_iff] at h1
  obtain ⟨q, hq, rfl⟩ := h1
  refine ⟨q, hq, l.take (maxElement (l.map fun q => afun q.2)), l.drop (maxElement (l.map fun q => afun q.2) + 1), ?_, ?_, ?_⟩
  · obtain ⟨hi, rfl⟩ := List.getElem?_eq_some_iff.1 hq
    rw [List.getElem_cons_drop, List.take_append_drop]
  · intro r hr
    obtain ⟨j, hj⟩ := List.getElem?_of_mem hr
    rw [List.getElem?_take] at hj
    split at hj
    · next hlt => exact h3 j _ hlt (by rw [List.getElem?_map, hj]; rfl)
    · cases hj
  · intro r hr
    obtain ⟨j, hj⟩ := List.getElem?_of_mem (List.mem_of_mem_drop hr)
    exact h2 j _ (by rw [List.getElem?_map, hj]; rfl)

/-- **C111**: whatever way `optimize` ends, `best_samples.dat` (`best_observations.dat`, `best_aggregated_observations.dat`) has got a header if no iteration was made
before, and one row per iteration that stored an evaluation, numbered consecutively; the row of an iteration shows the best of all evaluations known
after it (those before the run, the initial points and those of the iterations), the earliest one in case of ties. -/
theorem C111_logs (P : BoParams α M) (hen : P.statsEnabled = true) (c : Int) (m : M) (ops : List (BoOp α M)) (st st' : BoState α M)
    (h : runOps P ops (newBo P c m) = some st) (f : StateFun α M) (afun : List α → α) (reset : Bool)
    (fuel : Nat) (ho : optimize P f afun reset fuel st = .ok st' ∨ ∃ e, optimize P f afun reset fuel st = .throw e st')
    (hnan : ∀ o ∈ st'.observations, isNaN (afun o) = false) (k : Nat) (p : List α × List α → List α)
    (hk : (P.stats[k]? = some statBestSamples ∧ p = fun q => q.1) ∨ (P.stats[k]? = some statBestObservations ∧ p = fun q => q.2) ∨
      (P.stats[k]? = some statBestAggregated ∧ p = fun q => [afun q.2]))
    (L0 : List (LogLine α)) (hL0 : st.logs[k]? = some L0) :
    ∃ pre it bests, st'.trace = st.trace ++ pre ++ it ∧ acquiCount pre = 0 ∧ (it = [] ∨ ∃ m c tl, it = .acqui m c :: tl) ∧
      bests.length = (expect it).length ∧
      (∀ i q, bests[i]? = some q → IsFirstBest afun (expect (st.trace ++ pre) ++ (expect it).take (i + 1)) q) ∧
      st'.logs[k]? = some (L0 ++ bestRows p (if reset then 0 else st.totalIterations.toNat) bests) := by
  have hI := runOps_inv (I := DataInv) (fun op st h => runOp_inv P op st h) ops _ st (newBo_inv P c m) h
  have htot := C10_total_nonneg P c m ops st h
  obtain ⟨s, hs1, hs2⟩ : ∃ s : Stat α M, P.stats[k]? = some s ∧
      ((s = statBestSamples ∧ p = fun q => q.1) ∨ (s = statBestObservations ∧ p = fun q => q.2) ∨ (s = statBestAggregated ∧ p = fun q => [afun q.2])) := by
    rcases hk with ⟨h1, h2⟩ | ⟨h1, h2⟩ | ⟨h1, h2⟩
    · exact ⟨_, h1, Or.inl ⟨rfl, h2⟩⟩
    · exact ⟨_, h1, Or.inr (Or.inl ⟨rfl, h2⟩)⟩
    · exact ⟨_, h1, Or.inr (Or.inr ⟨rfl, h2⟩)⟩
  have hlog := optimize_log (L0 := L0) hen hs1 f reset fuel st (statBest_appends _ hs2) (fun b => rfl) hI htot hL0
  obtain ⟨pre, it, hT⟩ : ∃ pre it, LogT (fun b n => bestRowsO p (startTotal reset st) (bestsOf afun b n)) k L0 (startTotal reset st) st pre it st' := by
    rcases ho with ho | ⟨e, ho⟩
    · rw [ho] at hlog; obtain ⟨a, b, hab⟩ := hlog; exact ⟨a, b, hab.toLogT⟩
    · rw [ho] at hlog; exact hlog
  have hdata := hT.data
  have hall : ∀ q ∈ expect (st.trace ++ pre) ++ expectFrom [] it, isNaN (afun q.2) = false := by
    intro q hq
    rw [← hdata] at hq
    exact hnan _ (List.of_mem_zip hq).2
  have hb : ∀ i < (expectFrom [] it).length, ∃ q, bestOf afun (expect (st.trace ++ pre) ++ (expectFrom [] it).take (i + 1)) = some q ∧
      IsFirstBest afun (expect (st.trace ++ pre) ++ (expectFrom [] it).take (i + 1)) q := by
    intro i hi
    refine bestOf_first ?_ fun q hq => hall q ?_
    · intro h0
      rw [List.append_eq_nil_iff] at h0
      have := congrArg List.length h0.2
      simp at this
      rw [this] at hi; simp at hi
    · rcases List.mem_append.1 hq with h1 | h1
      · exact List.mem_append_left _ h1
      · exact List.mem_append_right _ (List.mem_of_mem_take h1)
  let bests := (List.range (expectFrom [] it).length).attach.map fun i => (hb i.1 (List.mem_range.1 i.2)).choose
  have hbs : (bestsOf afun (expect (st.trace ++ pre)) (expectFrom [] it)) = bests.map some := by
    refine List.ext_getElem (by simp [bestsOf, bests]) fun i h1 h2 => ?_
    simp only [bestsOf, List.getElem_map, List.getElem_range, bests, List.getElem_attach]
    exact (hb i (by simpa [bestsOf] using h1)).choose_spec.1
  refine ⟨pre, it, bests, hT.trace, hT.acq0, hT.shape, by simp [bests]; rfl, ?_, ?_⟩
  · intro i q hq
    obtain ⟨hi, rfl⟩ := List.getElem?_eq_some_iff.1 hq
    simp only [bests, List.getElem_map, List.getElem_attach, List.getElem_range]
    exact (hb i (by simpa [bests] using hi)).choose_spec.2
  · rw [hT.log, hbs]
    have : bestRowsO p (startTotal reset st) (bests.map some) = bestRows p (startTotal reset st) bests := by
      unfold bestRowsO bestRows
      by_cases h0 : bests = []
      · simp [h0]
      · rw [if_neg (by simpa using h0), if_neg h0]
        congr 1
        refine List.ext_getElem (by simp) fun i h1 h2 => ?_
        simp
    show some (L0 ++ bestRowsO p (startTotal reset st) (bests.map some)) = _
    rw [this]; rfl

/-- **C111**: the rows never get worse: the best evaluation of a longer list of evaluations is at least as good. -/
theorem C111_never_worse (afun : List α → α) (l more : List (List α × List α)) (q q' : List α × List α) (hnan : ∀ r ∈ l ++ more, isNaN (afun r.2) = false)
    (h : IsFirstBest afun l q) (h' : IsFirstBest afun (l ++ more) q') : le (afun q.2) (afun q'.2) = true := by
  have hq : q ∈ l ++ more := by
    obtain ⟨a, b, rfl, -⟩ := h
    simp
  obtain ⟨a, b, he, h1, h2⟩ := h'
  have hq' : q' ∈ l ++ more := by rw [he]; simp
  rw [he] at hq
  rcases List.mem_append.1 hq with hm | hm
  · exact le_of_lt (h1 q hm)
  · rcases List.mem_cons.1 hm with rfl | hm
    · exact le_refl' _ (hnan _ hq')
    · exact h2 q hm

/-- An objective with its maximum inside; first run (2 initial points, 3 iterations), resumed once: header, then rows 0, 1, ..., 5. -/
example : (runOps { exP with stats := [statBestSamples, statBestAggregated] }
      [.optimize { exF with call := fun _ x => .ret (x.map fun v => v * (F64.of 1 - v)) } firstElem true 10,
       .optimize { exF with call := fun _ x => .ret x } firstElem false 10]
    (newBo { exP with stats := [statBestSamples, statBestAggregated] } 0 [])).map (fun st => (st.logs, st.observations.all fun o => !isNaN (firstElem o))) =
    some ([.header :: [0, 1, 2, 3, 4, 5].map fun i => .row i [F64.of (1/2), F64.of (1/2)],
      [.header, .row 0 [F64.of (1/4)], .row 1 [F64.of (1/4)], .row 2 [F64.of (1/4)], .row 3 [F64.of (1/2)], .row 4 [F64.of (1/2)], .row 5 [F64.of (1/2)]]], true) := by
  decide +kernel

end Limbo
