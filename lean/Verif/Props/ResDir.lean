import Mathlib.Data.List.Flatten
import Verif.Spec.ResDir

/-!
C97: the result directory identifies host, second and process; logs in different directories never mix, logs in the same directory do.
-/

namespace Limbo.Res

/-! ### Decoding the name -/

theorem digit_toNat (n : ℕ) : (digit n).toNat = 48 + n % 10 := by
  have h : ∀ k : Fin 10, (Char.ofNat (48 + k)).toNat = 48 + k := by decide
  exact h ⟨n % 10, Nat.mod_lt _ (by norm_num)⟩

theorem digit_inj {n m : ℕ} (h : digit n = digit m) : n % 10 = m % 10 := by
  have := congrArg Char.toNat h
  rw [digit_toNat, digit_toNat] at this
  omega

theorem digit_ne_underscore (n : ℕ) : digit n ≠ '_' := by
  intro h
  have := congrArg Char.toNat h
  rw [digit_toNat] at this
  have e : ('_').toNat = 95 := rfl
  omega

theorem two_inj {n m : ℕ} (hn : n < 100) (hm : m < 100) (h : two n = two m) : n = m := by
  simp only [two, List.cons.injEq, and_true] at h
  have h1 := digit_inj h.1
  have h2 := digit_inj h.2
  omega

theorem four_inj {n m : ℕ} (hn : n < 10000) (hm : m < 10000) (h : four n = four m) : n = m := by
  simp only [four, List.cons.injEq, and_true] at h
  have h1 := digit_inj h.1
  have h2 := digit_inj h.2.1
  have h3 := digit_inj h.2.2.1
  have h4 := digit_inj h.2.2.2
  omega

theorem dec_ne_nil (n : ℕ) : dec n ≠ [] := by
  unfold dec
  split <;> simp

theorem dec_inj : ∀ n m : ℕ, dec n = dec m → n = m := by
  intro n
  induction n using Nat.strong_induction_on with
  | _ n ih =>
    intro m h
    rw [dec, dec.eq_1 m] at h
    by_cases hn : n < 10 <;> by_cases hm : m < 10
    · rw [if_pos hn, if_pos hm] at h
      have := digit_inj (List.cons.inj h).1
      omega
    · rw [if_pos hn, if_neg hm] at h
      have := congrArg List.length h
      have h0 := List.length_pos_of_ne_nil (dec_ne_nil (m / 10))
      rw [List.length_append, List.length_singleton, List.length_singleton] at this
      omega
    · rw [if_neg hn, if_pos hm] at h
      have := congrArg List.length h
      have h0 := List.length_pos_of_ne_nil (dec_ne_nil (n / 10))
      rw [List.length_append, List.length_singleton, List.length_singleton] at this
      omega
    · rw [if_neg hn, if_neg hm] at h
      obtain ⟨h1, h2⟩ := List.append_inj' h rfl
      have := ih (n / 10) (by omega) _ h1
      have := digit_inj (List.cons.inj h2).1
      omega

theorem dec_no_underscore (n : ℕ) : '_' ∉ dec n := by
  induction n using Nat.strong_induction_on with
  | _ n ih =>
    rw [dec]
    split
    · simp [(digit_ne_underscore n).symm]
    · simp only [List.mem_append, List.mem_singleton, not_or]
      exact ⟨ih _ (by omega), (digit_ne_underscore n).symm⟩

theorem split_last {a b l m : List Char} (hl : '_' ∉ l) (hm : '_' ∉ m) (h : a ++ ['_'] ++ l = b ++ ['_'] ++ m) : a = b ∧ l = m := by
  have e : l = m := by
    rcases Nat.lt_trichotomy l.length m.length with hlt | heq | hlt
    · exfalso
      apply hm
      have hs : ['_'] ++ l <:+ a ++ ['_'] ++ l := ⟨a, by simp⟩
      have hs' : m <:+ a ++ ['_'] ++ l := by rw [h]; exact ⟨b ++ ['_'], rfl⟩
      have := List.suffix_of_suffix_length_le hs hs' (by simp; omega)
      exact this.subset (by simp)
    · exact (List.append_inj' h heq).2
    · exfalso
      apply hl
      have hs : ['_'] ++ m <:+ a ++ ['_'] ++ l := by rw [h]; exact ⟨b, by simp⟩
      have hs' : l <:+ a ++ ['_'] ++ l := ⟨a ++ ['_'], rfl⟩
      have := List.suffix_of_suffix_length_le hs hs' (by simp; omega)
      exact this.subset (by simp)
  subst e
  have := List.append_cancel_right h
  exact ⟨List.append_cancel_right this, rfl⟩

theorem date_inj {t t' : Time} (h : t.Valid) (h' : t'.Valid) (e : date t = date t') : t = t' := by
  unfold date at e
  obtain ⟨e, es⟩ := List.append_inj' e rfl
  obtain ⟨e, -⟩ := List.append_inj' e rfl
  obtain ⟨e, em⟩ := List.append_inj' e rfl
  obtain ⟨e, -⟩ := List.append_inj' e rfl
  obtain ⟨e, eh⟩ := List.append_inj' e rfl
  obtain ⟨e, -⟩ := List.append_inj' e rfl
  obtain ⟨e, ed⟩ := List.append_inj' e rfl
  obtain ⟨e, -⟩ := List.append_inj' e rfl
  obtain ⟨e, emo⟩ := List.append_inj' e rfl
  obtain ⟨ey, -⟩ := List.append_inj' e rfl
  have y := four_inj h.year.2 h'.year.2 ey
  have a := two_inj (by have := h.month.2; omega) (by have := h'.month.2; omega) emo
  have b := two_inj (by have := h.day.2; omega) (by have := h'.day.2; omega) ed
  have c := two_inj (by have := h.hour; omega) (by have := h'.hour; omega) eh
  have d := two_inj (by have := h.min; omega) (by have := h'.min; omega) em
  have f := two_inj (by have := h.sec; omega) (by have := h'.sec; omega) es
  cases t
  cases t'
  simp_all

/-- **C97**: the name of the result directory determines host, local time (to the second) and process: two optimizers with enabled
statistics get the same directory exactly if they agree in all three. -/
theorem C97_directory_identifies (h h' : List Char) (t t' : Time) (p p' : ℕ) (ht : t.Valid) (ht' : t'.Valid) {d : List Char}
    (hd : resDir true h t p = some d) : resDir true h' t' p' = some d ↔ h' = h ∧ t' = t ∧ p' = p := by
  constructor
  · intro hd'
    simp only [resDir, Bool.not_true, Bool.false_eq_true, if_false, Option.map_eq_some_iff] at hd hd'
    obtain ⟨a, ha, rfl⟩ := hd
    obtain ⟨b, hb, e⟩ := hd'
    have hh : a = h := by
      unfold hostname at ha
      split at ha
      · exact (Option.some.inj ha).symm
      · cases ha
    have hh' : b = h' := by
      unfold hostname at hb
      split at hb
      · exact (Option.some.inj hb).symm
      · cases hb
    subst hh hh'
    obtain ⟨e, ep⟩ := split_last (dec_no_underscore _) (dec_no_underscore _) e
    obtain ⟨e, ed⟩ := List.append_inj' e (by simp [date, two, four])
    exact ⟨List.append_cancel_right e, date_inj ht' ht ed, dec_inj _ _ ep⟩
  · rintro ⟨rfl, rfl, rfl⟩
    exact hd

/-- **C97**: a host name of 50 or more characters makes constructing an optimizer with enabled statistics fail. -/
theorem C97_long_host_name (h : List Char) (t : Time) (p : ℕ) : resDir true h t p = none ↔ 50 ≤ h.length := by
  simp only [resDir, Bool.not_true, Bool.false_eq_true, if_false, Option.map_eq_none_iff, hostname]
  split
  · simp; omega
  · simp; omega

/-! ### Files -/

theorem overwrite_end (c data : List Char) : overwrite c c.length data = c ++ data := by
  simp [overwrite]

theorem printed_snoc (i k : ℕ) (l : List Act) (a : Act) : printed i k (l ++ [a]) = printed i k l ++ printed i k [a] := by
  unfold printed
  rw [List.filterMap_append, List.flatten_append]

/-- What the world looks like after the actions `l`. -/
structure Inv (dir : ℕ → List Char) (name : ℕ → ℕ → List Char) (f0 : Files) (made : List ℕ) (l : List Act) (w : World) : Prop where
  obj : ∀ i ∈ made, ∃ o, w.objs i = some o ∧ o.enabled = true ∧ o.dir = dir i ∧
    (∀ k, called i k l → o.log k = some ⟨path (dir i) (name i k), (printed i k l).length⟩) ∧ ∀ k, ¬ called i k l → o.log k = none
  files : ∀ i k, called i k l → w.files (path (dir i) (name i k)) = some (printed i k l)
  others : ∀ p, (∀ i k, called i k l → p ≠ path (dir i) (name i k)) → w.files p = f0 p
  fresh : ∀ i, i ∉ made → ∀ k, ¬ called i k l

theorem called_snoc {i k : ℕ} {l : List Act} {a : Act} : called i k (l ++ [a]) ↔ called i k l ∨ ∃ n d, a = .stat i k n d := by
  unfold called
  constructor
  · rintro ⟨n, d, h⟩
    rcases List.mem_append.1 h with h | h
    · exact Or.inl ⟨n, d, h⟩
    · exact Or.inr ⟨n, d, (List.mem_singleton.1 h).symm⟩
  · rintro (⟨n, d, h⟩ | ⟨n, d, rfl⟩)
    · exact ⟨n, d, List.mem_append_left _ h⟩
    · exact ⟨n, d, by simp⟩

theorem printed_other {i k : ℕ} {a : Act} (h : ∀ n d, a ≠ .stat i k n d) : printed i k [a] = [] := by
  unfold printed
  cases a with
  | create j en d => rfl
  | stat j q n d =>
    have : ¬ (j = i ∧ q = k) := by
      rintro ⟨rfl, rfl⟩
      exact h n d rfl
    simp [this]

theorem printed_self (i k : ℕ) (n d : List Char) : printed i k [.stat i k n d] = d := by simp [printed]

theorem printed_not_called {i k : ℕ} {l : List Act} (h : ¬ called i k l) : printed i k l = [] := by
  unfold printed
  rw [List.flatten_eq_nil_iff]
  intro d hd
  obtain ⟨a, ha, hb⟩ := List.mem_filterMap.1 hd
  cases a with
  | create j en x => cases hb
  | stat j q n x =>
    simp only at hb
    split at hb
    · next e =>
      obtain ⟨rfl, rfl⟩ := e
      exact absurd ⟨n, x, ha⟩ h
    · cases hb

theorem inv_run {dir : ℕ → List Char} {name : ℕ → ℕ → List Char} {f0 : Files}
    (hinj : ∀ i k i' k', path (dir i) (name i k) = path (dir i') (name i' k') → i = i' ∧ k = k') :
    ∀ (l done : List Act) (made : List ℕ) (w : World), Inv dir name f0 made done w → Proper dir name made l →
      ∃ made', Inv dir name f0 made' (done ++ l) (run w l)
  | [], done, made, w, hw, _ => ⟨made, by simpa [run] using hw⟩
  | .create i en d :: l, done, made, w, hw, hp => by
    obtain ⟨h1, rfl, rfl, h4⟩ := hp
    have hc : ∀ j k, called j k (done ++ [.create i true (dir i)]) ↔ called j k done := by
      intro j k
      rw [called_snoc]
      simp
    have hpr : ∀ j k, printed j k (done ++ [.create i true (dir i)]) = printed j k done := by
      intro j k
      rw [printed_snoc, printed_other (by simp), List.append_nil]
    have := inv_run (f0 := f0) hinj l (done ++ [.create i true (dir i)]) (i :: made) (step w (.create i true (dir i))) ?_ h4
    · rw [List.append_assoc] at this
      exact this
    constructor
    · intro j hj
      by_cases e : j = i
      · subst e
        refine ⟨⟨true, dir j, fun _ => none⟩, by simp [step], rfl, rfl, fun k hk => ?_, fun k _ => rfl⟩
        exact absurd ((hc j k).1 hk) (hw.fresh j h1 k)
      · obtain ⟨o, a, b, c, d, f⟩ := hw.obj j ((List.mem_cons.1 hj).resolve_left e)
        refine ⟨o, by simp [step, e, a], b, c, fun k hk => ?_, fun k hk => ?_⟩
        · rw [hpr]
          exact d k ((hc j k).1 hk)
        · exact f k fun h => hk ((hc j k).2 h)
    · intro j k hk
      rw [hpr]
      exact hw.files j k ((hc j k).1 hk)
    · intro p hpth
      exact hw.others p fun j k hk => hpth j k ((hc j k).2 hk)
    · intro j hj k hk
      exact hw.fresh j (fun h => hj (List.mem_cons_of_mem _ h)) k ((hc j k).1 hk)
  | .stat i k n data :: l, done, made, w, hw, hp => by
    obtain ⟨h1, rfl, h3⟩ := hp
    have := inv_run (f0 := f0) hinj l (done ++ [.stat i k (name i k) data]) made (step w (.stat i k (name i k) data)) ?_ h3
    · rw [List.append_assoc] at this
      exact this
    have hc : ∀ j q, called j q (done ++ [.stat i k (name i k) data]) ↔ called j q done ∨ (j = i ∧ q = k) := by
      intro j q
      rw [called_snoc]
      constructor
      · rintro (h | ⟨n, d, h⟩)
        · exact Or.inl h
        · cases h
          exact Or.inr ⟨rfl, rfl⟩
      · rintro (h | ⟨rfl, rfl⟩)
        · exact Or.inl h
        · exact Or.inr ⟨_, _, rfl⟩
    have hself : printed i k (done ++ [.stat i k (name i k) data]) = printed i k done ++ data := by
      rw [printed_snoc, printed_self]
    have hpr : ∀ j q, ¬ (j = i ∧ q = k) → printed j q (done ++ [.stat i k (name i k) data]) = printed j q done := by
      intro j q hne
      rw [printed_snoc, printed_other, List.append_nil]
      intro n d e
      cases e
      exact hne ⟨rfl, rfl⟩
    obtain ⟨o, ho, hen, hdir, hlog, hnolog⟩ := hw.obj i h1
    -- the stream that is used and the file before printing
    have hs : (o.log k).getD ⟨path o.dir (name i k), 0⟩ = ⟨path (dir i) (name i k), (printed i k done).length⟩ := by
      by_cases hcal : called i k done
      · rw [hlog k hcal]
        rfl
      · rw [hnolog k hcal, hdir, printed_not_called hcal]
        rfl
    have hstep : step w (.stat i k (name i k) data) =
        { objs := fun j => if j = i then some { o with log := fun q => if q = k then
            (some ⟨path (dir i) (name i k), (printed i k done).length + data.length⟩ : Option Stream) else o.log q } else w.objs j
          files := fun p => if p = path (dir i) (name i k) then some (printed i k done ++ data) else w.files p } := by
      simp only [step, ho, hen, Bool.not_true, Bool.false_eq_true, if_false, hs]
      congr 1
      funext p
      by_cases hpp : p = path (dir i) (name i k)
      · simp only [hpp, if_true]
        by_cases hcal : called i k done
        · rw [hlog k hcal]
          simp only [Option.isNone_some, Bool.false_eq_true, if_false]
          rw [hw.files i k hcal, Option.getD_some, overwrite_end]
        · rw [hnolog k hcal, printed_not_called hcal]
          simp [overwrite]
      · simp only [hpp, if_false]
        split
        · exact if_neg hpp
        · rfl
    rw [hstep]
    constructor
    · intro j hj
      by_cases e : j = i
      · subst e
        refine ⟨_, if_pos rfl, hen, hdir, fun q hq => ?_, fun q hq => ?_⟩
        · by_cases eq : q = k
          · subst eq
            show (if q = q then _ else _) = _
            rw [if_pos rfl, hself, List.length_append]
          · show (if q = k then _ else _) = _
            rw [if_neg eq, hpr j q (fun h => eq h.2)]
            exact hlog q (((hc j q).1 hq).resolve_right fun h => eq h.2)
        · have eq : q ≠ k := fun h => hq ((hc j q).2 (Or.inr ⟨rfl, h⟩))
          show (if q = k then _ else _) = _
          rw [if_neg eq]
          exact hnolog q fun h => hq ((hc j q).2 (Or.inl h))
      · obtain ⟨o', a, b, c, d, f⟩ := hw.obj j hj
        refine ⟨o', by simp [e, a], b, c, fun q hq => ?_, fun q hq => ?_⟩
        · rw [hpr j q (fun h => e h.1)]
          exact d q (((hc j q).1 hq).resolve_right fun h => e h.1)
        · exact f q fun h => hq ((hc j q).2 (Or.inl h))
    · intro j q hq
      by_cases e : j = i ∧ q = k
      · obtain ⟨rfl, rfl⟩ := e
        show (if _ then _ else _) = _
        rw [if_pos rfl, hself]
      · have hne : path (dir j) (name j q) ≠ path (dir i) (name i k) := fun h => e (hinj _ _ _ _ h)
        show (if _ then _ else _) = _
        rw [if_neg hne, hpr j q e]
        exact hw.files j q (((hc j q).1 hq).resolve_right e)
    · intro p hpth
      have hne : p ≠ path (dir i) (name i k) := hpth i k ((hc i k).2 (Or.inr ⟨rfl, rfl⟩))
      show (if _ then _ else _) = _
      rw [if_neg hne]
      exact hw.others p fun j q hq => hpth j q ((hc j q).2 (Or.inl hq))
    · intro j hj q hq
      rcases (hc j q).1 hq with h | ⟨rfl, rfl⟩
      · exact hw.fresh j hj q h
      · exact hj h1

theorem path_inj {d d' n n' : List Char} (hn : '/' ∉ n) (hn' : '/' ∉ n') (h : path d n = path d' n') : d = d' ∧ n = n' := by
  have key : ∀ {a b l m : List Char}, '/' ∉ m → l.length < m.length → a ++ ['/'] ++ l = b ++ ['/'] ++ m → False := by
    intro a b l m hm hlt h
    apply hm
    have hs : ['/'] ++ l <:+ a ++ ['/'] ++ l := ⟨a, by simp⟩
    have hs' : m <:+ a ++ ['/'] ++ l := by rw [h]; exact ⟨b ++ ['/'], rfl⟩
    exact (List.suffix_of_suffix_length_le hs hs' (by simp; omega)).subset (by simp)
  unfold path at h
  rcases Nat.lt_trichotomy n.length n'.length with hlt | heq | hlt
  · exact (key hn' hlt h).elim
  · obtain ⟨h1, h2⟩ := List.append_inj' h heq
    exact ⟨List.append_cancel_right h1, h2⟩
  · exact (key hn hlt h.symm).elim

/-- **C97**: optimizers in different directories never disturb each other's files: however the calls of all statistics of all optimizers
interleave, and whatever the file system held before, each file contains exactly what its statistic printed, and no other file changes. -/
theorem C97_logs_do_not_mix (dir : ℕ → List Char) (name : ℕ → ℕ → List Char) (hdir : ∀ i j, dir i = dir j → i = j)
    (hname : ∀ i k q, name i k = name i q → k = q) (hslash : ∀ i k, '/' ∉ name i k) (f0 : Files) (l : List Act)
    (hl : Proper dir name [] l) :
    (∀ i k, called i k l → (run ⟨fun _ => none, f0⟩ l).files (path (dir i) (name i k)) = some (printed i k l)) ∧
    ∀ p, (∀ i k, called i k l → p ≠ path (dir i) (name i k)) → (run ⟨fun _ => none, f0⟩ l).files p = f0 p := by
  obtain ⟨made, h⟩ := inv_run (dir := dir) (name := name) (f0 := f0) (by
    intro i k i' k' e
    obtain ⟨a, b⟩ := path_inj (hslash i k) (hslash i' k') e
    have := hdir _ _ a
    subst this
    exact ⟨rfl, hname _ _ _ b⟩) l [] [] ⟨fun _ => none, f0⟩
    ⟨fun i hi => absurd hi List.not_mem_nil, fun i k ⟨_, _, h⟩ => absurd h List.not_mem_nil, fun p _ => rfl,
      fun i _ k ⟨_, _, h⟩ => absurd h List.not_mem_nil⟩ hl
  exact ⟨h.files, h.others⟩

/-- **C97** (what goes wrong): the first call of a statistic empties its file, whoever wrote it.  So an optimizer constructed by the same process
in the same second as another one erases the other's log. -/
theorem C97_same_directory_erases (w : World) (i k : ℕ) (o : Obj) (name data : List Char) (ho : w.objs i = some o)
    (hen : o.enabled = true) (hlog : o.log k = none) : (step w (.stat i k name data)).files (path o.dir name) = some data := by
  simp [step, ho, hen, hlog, overwrite]

/-- Two optimizers of one process, created within one second: the log of the first is lost, and what it prints later lands in the middle of
the log of the second. -/
example : let dir := "pc_2024-01-01_10_00_00_42".toList
    resDir true "pc".toList ⟨2024, 1, 1, 10, 0, 0⟩ 42 = some dir ∧
    (run ⟨fun _ => none, fun _ => none⟩ [.create 0 true dir, .stat 0 0 "s.dat".toList "a\n".toList, .create 1 true dir,
      .stat 1 0 "s.dat".toList "b\n".toList]).files (path dir "s.dat".toList) = some "b\n".toList ∧
    (run ⟨fun _ => none, fun _ => none⟩ [.create 0 true dir, .stat 0 0 "s.dat".toList "a\n".toList, .create 1 true dir,
      .stat 1 0 "s.dat".toList "bbbb\n".toList, .stat 0 0 "s.dat".toList "x\n".toList]).files (path dir "s.dat".toList)
        = some "bbx\n\n".toList := by
  decide +kernel

/-- Two optimizers in different directories, interleaved. -/
example : Proper (fun i => if i = 0 then "d0".toList else "d".toList ++ List.replicate i 'x') (fun _ k => List.replicate (k + 1) 'f') []
    [.create 0 true "d0".toList, .stat 0 0 "f".toList "a".toList, .create 1 true "dx".toList, .stat 1 0 "f".toList "b".toList,
      .stat 0 0 "f".toList "c".toList] := by
  simp [Proper]

end Limbo.Res
