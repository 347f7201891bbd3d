import Verif.Lemmas.Archive
import Verif.Basic.Xt
import Mathlib.Logic.Encodable.Basic
import Mathlib.Data.Rat.Encodable
import Mathlib.Tactic.Linarith
import Mathlib.Tactic.NormNum

/-! # C54, C55, C69: archives -/

namespace Limbo

open BinArch

/-! ## C54 -/

/-- **C54**: a saved matrix is loaded back bit for bit, whatever was in the file and in memory before. -/
theorem C54_matrix_roundtrip (junk : Nat → Byte) (fs : Fs Byte) (dir obj : String) {m : BMat} (hm : m.Fits) :
    loadMat junk (saveMat fs dir obj m) dir obj = some m := loadMat_of hm (write_self _ _ _)

/-- **C54**: a saved vector is loaded back bit for bit. -/
theorem C54_vector_roundtrip (junk : Nat → Byte) (fs : Fs Byte) (dir obj : String) {m : BMat} (hm : m.Fits) (h1 : m.cols = 1) :
    loadVec junk (saveMat fs dir obj m) dir obj = some m := by
  unfold loadVec saveMat
  rw [openIn_some (write_self _ _ _)]
  have := readVec_write junk hm h1 []
  rw [List.append_nil] at this
  rw [this]; rfl

/-- **C54**: a saved non-empty list of vectors (of any lengths) is loaded back bit for bit. -/
theorem C54_list_roundtrip (junk : Nat → Byte) (fs : Fs Byte) (dir obj : String) {l : List BMat} (hl : ∀ m ∈ l, m.Fits ∧ m.cols = 1)
    (hne : l ≠ []) (hs : l.length < 2 ^ 31) : loadList junk (saveList fs dir obj l) dir obj = some l :=
  loadList_of hl hne hs (write_self _ _ _)

/-- **C54**: saving an object changes nothing about the other objects of the directory. -/
theorem C54_other_objects_untouched (junk : Nat → Byte) (fs : Fs Byte) (dir : String) {obj other : String} (h : other ≠ obj) (m : BMat)
    (l : List BMat) : ∀ fs' ∈ [saveMat fs dir obj m, saveList fs dir obj l], loadMat junk fs' dir other = loadMat junk fs dir other ∧
      loadVec junk fs' dir other = loadVec junk fs dir other ∧ loadList junk fs' dir other = loadList junk fs dir other := by
  have hp : BinArch.fname dir other ≠ BinArch.fname dir obj := fun e => h (bin_fname_inj e)
  intro fs' hfs
  have he : openIn fs' (BinArch.fname dir other) = openIn fs (BinArch.fname dir other) := by
    unfold openIn
    simp only [List.mem_cons, List.not_mem_nil, or_false] at hfs
    rcases hfs with rfl | rfl
    · unfold saveMat; rw [write_other _ _ hp]
    · unfold saveList; rw [write_other _ _ hp]
  unfold loadMat loadVec loadList
  rw [he]
  exact ⟨rfl, rfl, rfl⟩

/-- **C54**, the excluded case: a saved empty list cannot be loaded (assertion). -/
theorem C54_empty_list_refused (junk : Nat → Byte) (fs : Fs Byte) (dir obj : String) : loadList junk (saveList fs dir obj []) dir obj = none := by
  unfold loadList saveList
  rw [openIn_some (write_self _ _ _)]
  rfl

/-- **C54**, a missing file: loading a matrix does not fail, it silently gives an empty matrix. -/
theorem C54_missing_matrix_is_empty (junk : Nat → Byte) (fs : Fs Byte) (dir obj : String) (h : fs (BinArch.fname dir obj) = none) :
    loadMat junk fs dir obj = some ⟨0, 0, []⟩ := by
  unfold loadMat openIn
  rw [h]
  rfl

/-- the hypotheses of the round trips: a 2×2 matrix with a NaN, minus zero, infinity and a subnormal -/
example : BMat.Fits ⟨2, 2, [0x7ff8000000000001#64, 0x8000000000000000#64, 0x7ff0000000000000#64, 1#64]⟩ :=
  ⟨by decide, by decide, by decide, by decide⟩

example : ∀ m ∈ [(⟨2, 1, [1#64, 2#64]⟩ : BMat), ⟨0, 1, []⟩], m.Fits ∧ m.cols = 1 := by
  intro m hm
  simp only [List.mem_cons, List.not_mem_nil, or_false] at hm
  rcases hm with rfl | rfl <;> exact ⟨⟨by decide, by decide, by decide, by decide⟩, rfl⟩

/-! ## C69: interrupted saves -/

/-- **C69**: whatever the moment of the crash, the files before some position are complete, those after it are untouched, and the one at
that position is untouched or cut short. -/
theorem C69_one_file_at_most_is_damaged {χ : Type} {fs fs' : Fs χ} {ws : List (String × List χ)} (hc : fs.Crashed ws fs')
    (hd : (ws.map Prod.fst).Nodup) : ∃ k : Nat, (∀ (i : Nat) (w : String × List χ), ws[i]? = some w → (i < k → fs' w.1 = some w.2) ∧ (k < i → fs' w.1 = fs w.1) ∧
      (i = k → fs' w.1 = fs w.1 ∨ ∃ n, fs' w.1 = some (w.2.take n))) ∧ ∀ p, p ∉ ws.map Prod.fst → fs' p = fs p := by
  induction hc with
  | before fs ws => exact ⟨0, fun i w _ => ⟨fun h => by omega, fun _ => rfl, fun _ => Or.inl rfl⟩, fun _ _ => rfl⟩
  | during fs w ws n =>
    simp only [List.map_cons, List.nodup_cons] at hd
    refine ⟨0, fun i v hv => ⟨fun h => by omega, fun h => ?_, fun h => ?_⟩, fun p hp => ?_⟩
    · cases i with
      | zero => omega
      | succ i =>
        simp only [List.getElem?_cons_succ] at hv
        refine write_other _ _ ?_
        rintro e
        exact hd.1 (e ▸ List.mem_map.2 ⟨v, List.mem_of_getElem? hv, rfl⟩)
    · subst h
      simp only [List.getElem?_cons_zero, Option.some.injEq] at hv
      subst hv
      exact Or.inr ⟨n, write_self _ _ _⟩
    · simp only [List.map_cons, List.mem_cons, not_or] at hp
      exact write_other _ _ hp.1
  | @after fs w ws fs' _ ih =>
    simp only [List.map_cons, List.nodup_cons] at hd
    obtain ⟨k, h1, h2⟩ := ih hd.2
    refine ⟨k + 1, fun i v hv => ?_, fun p hp => ?_⟩
    · cases i with
      | zero =>
        simp only [List.getElem?_cons_zero, Option.some.injEq] at hv
        subst hv
        refine ⟨fun _ => ?_, fun h => by omega, fun h => by omega⟩
        rw [h2 _ hd.1]
        exact write_self _ _ _
      | succ i =>
        simp only [List.getElem?_cons_succ] at hv
        obtain ⟨a, b, c⟩ := h1 i v hv
        have hne : v.1 ≠ w.1 := fun e => hd.1 (e ▸ List.mem_map.2 ⟨v, List.mem_of_getElem? hv, rfl⟩)
        rw [write_other _ _ hne] at b c
        exact ⟨fun h => a (by omega), fun h => b (by omega), fun h => c (by omega)⟩
    · simp only [List.map_cons, List.mem_cons, not_or] at hp
      rw [h2 _ hp.2]
      exact write_other _ _ hp.1

/-- **C69** for a GP: a save over an earlier one is not atomic — for any two saved GPs there is a moment where a crash leaves a directory
from which the new samples load together with the old observations, without any error. -/
theorem C69_crash_mixes_versions (junk : Nat → Byte) (fs : Fs Byte) (dir : String) (kp kp' mp mp' : Option BMat) {xs xs' : List BMat}
    {ys ys' : BMat} (L L' a a' : BMat) (hx : ∀ m ∈ xs', m.Fits ∧ m.cols = 1) (hne : xs' ≠ []) (hs : xs'.length < 2 ^ 31) (hy : ys.Fits) :
    ∃ fs', (fs.writeAll (gpWrites dir kp mp xs ys L a)).Crashed (gpWrites dir kp' mp' xs' ys' L' a') fs' ∧
      loadList junk fs' dir "samples" = some xs' ∧ loadMat junk fs' dir "observations" = some ys := by
  have inj : ∀ {a b : String}, a ≠ b → BinArch.fname dir a ≠ BinArch.fname dir b := fun h e => h (bin_fname_inj e)
  have hold : ∀ fs : Fs Byte, (fs.writeAll (gpWrites dir kp mp xs ys L a)) (BinArch.fname dir "observations") = some (writeBinary ys) := by
    intro fs
    unfold gpWrites
    cases kp <;> cases mp <;> simp only [Option.toList, List.map_nil, List.map_cons, List.nil_append, List.cons_append, Fs.writeAll] <;>
      rw [write_other _ _ (inj (by decide)), write_other _ _ (inj (by decide)), write_self]
  generalize hg : fs.writeAll (gpWrites dir kp mp xs ys L a) = g
  have ho : g (BinArch.fname dir "observations") = some (writeBinary ys) := hg ▸ hold fs
  -- the crash comes just after the samples
  have key : ∀ g : Fs Byte, g (BinArch.fname dir "observations") = some (writeBinary ys) →
      ∃ fs', g.Crashed [(BinArch.fname dir "samples", leBytes 4 (xs'.length % 2 ^ 32) ++ xs'.flatMap writeBinary),
        (BinArch.fname dir "observations", writeBinary ys'), (BinArch.fname dir "matrixL", writeBinary L'),
        (BinArch.fname dir "alpha", writeBinary a')] fs' ∧
        loadList junk fs' dir "samples" = some xs' ∧ loadMat junk fs' dir "observations" = some ys := by
    intro g ho
    refine ⟨_, .after (.before _ _), loadList_of hx hne hs (write_self _ _ _), loadMat_of hy ?_⟩
    rw [write_other _ _ (inj (by decide)), ho]
  have skip : ∀ (g : Fs Byte) (n : String) (m : BMat), n ≠ "observations" → g (BinArch.fname dir "observations") = some (writeBinary ys) →
      (g.write (BinArch.fname dir n) (writeBinary m)) (BinArch.fname dir "observations") = some (writeBinary ys) := by
    intro g n m hn ho
    rw [write_other _ _ (inj (Ne.symm hn)), ho]
  unfold gpWrites
  cases kp' with
  | none =>
    cases mp' with
    | none => exact key g ho
    | some m =>
      obtain ⟨f, h1, h2⟩ := key _ (skip g "mean_params" m (by decide) ho)
      exact ⟨f, .after h1, h2⟩
  | some k =>
    cases mp' with
    | none =>
      obtain ⟨f, h1, h2⟩ := key _ (skip g "kernel_params" k (by decide) ho)
      exact ⟨f, .after h1, h2⟩
    | some m =>
      obtain ⟨f, h1, h2⟩ := key _ (skip _ "mean_params" m (by decide) (skip g "kernel_params" k (by decide) ho))
      exact ⟨f, .after (.after h1), h2⟩

/-- **C69**: a matrix file cut short is loaded without any error; the missing coefficients are whatever was in memory. -/
theorem C69_truncated_file_loads_uninitialised_memory (fs : Fs Byte) (dir obj : String) (w : BitVec 64) (junk : Nat → Byte) :
    ∃ fs', fs.Crashed [(BinArch.fname dir obj, writeBinary ⟨1, 1, [w]⟩)] fs' ∧
      loadMat junk fs' dir obj = some ⟨1, 1, [BitVec.ofNat 64 (leVal ((List.range 8).map junk))]⟩ := by
  refine ⟨_, .during _ _ _ 16, ?_⟩
  unfold loadMat
  rw [openIn_some (write_self _ _ _)]
  have e : (writeBinary ⟨1, 1, [w]⟩).take 16 = leBytes 8 1 ++ leBytes 8 1 := by
    unfold writeBinary
    exact List.take_left' (by rw [List.length_append, leBytes_length])
  rw [e]
  have e1 : InStream.read ⟨leBytes 8 1 ++ leBytes 8 1, true⟩ (leBytes 8 0) = (leBytes 8 1, ⟨leBytes 8 1, true⟩) :=
    read_append _ _ _ rfl
  have e2 : InStream.read ⟨leBytes 8 1, true⟩ (leBytes 8 0) = (leBytes 8 1, ⟨[], true⟩) := by
    have := read_append (leBytes 8 1) [] (leBytes 8 0) rfl
    rwa [List.append_nil] at this
  unfold readBinary
  simp only [e1, e2]
  rw [leVal_leBytes 8 1 (by norm_num), if_neg (by decide)]
  have e3 : (BitVec.ofNat 64 1).toInt.toNat = 1 := by decide
  rw [e3]
  simp only [Option.map_some, InStream.read, if_true, List.take_nil, List.nil_append, List.length_nil, List.drop_zero, words]
  rw [List.take_of_length_le (by simp)]

example : ((gpWrites "d" none (some ⟨1, 1, [1#64]⟩) [⟨1, 1, [5#64]⟩] ⟨1, 1, [7#64]⟩ ⟨1, 1, [1#64]⟩ ⟨1, 1, [1#64]⟩).map Prod.fst).Nodup :=
  gp_paths_nodup _ _ _ _ _ _ _

/-! ## C55 -/

open TextArch

/-- **C55**: a saved matrix is loaded back with its shape, each entry as printed and read by the number formatter. -/
theorem C55_matrix_roundtrip {D : Type} (F : NumFmt D) (junk : Nat → Nat → D) (fs : Fs Char) (dir obj : String) {m : TMat D} (hm : m.Proper)
    (rnd : D → D) (hw : ∀ r ∈ m.e, ∀ x ∈ r, F.Word x) (hp : ∀ r ∈ m.e, ∀ x ∈ r, F.parse (F.print x) = some (rnd x)) :
    TextArch.loadMat F junk (TextArch.saveMat F fs dir obj m) dir obj = some ⟨m.rows, m.cols, m.e.map fun r => r.map rnd⟩ := by
  have hne : m.e ≠ [] := by
    intro h
    have := hm.rows
    rw [h] at this
    have := hm.rows_pos
    simp at *; omega
  have hraw : loadRaw F (TextArch.saveMat F fs dir obj m) dir obj = some (m.e.map fun r => r.map rnd) := by
    refine loadRaw_of (write_self _ _ _) ?_ (by simpa using hne)
    unfold format
    rw [if_neg (Nat.mul_ne_zero hm.rows_pos.ne' hm.cols_pos.ne'), pieces_join_end _ _ (by simpa using hne)]
    · exact readLines_print _ hw hp
    · intro l hl
      obtain ⟨r, hr, rfl⟩ := List.mem_map.1 hl
      exact row_no_newline r (hw r hr)
  unfold TextArch.loadMat
  rw [hraw, Option.bind_some]
  have hlen : ∀ r ∈ (m.e.map fun r => r.map rnd), r.length = m.cols := by
    intro r hr
    obtain ⟨s, hs, rfl⟩ := List.mem_map.1 hr
    rw [List.length_map, hm.cols s hs]
  have hc : ((m.e.map fun r => r.map rnd).headD []).length = m.cols := by
    cases he : m.e with
    | nil => exact absurd he hne
    | cons r e =>
      simp only [List.map_cons, List.headD_cons, List.length_map]
      exact hm.cols r (by rw [he]; simp)
  simp only [hc]
  rw [if_pos (by
    rw [List.all_eq_true]
    intro r hr
    simp [hlen r hr]), junk_free junk _ _ hlen, List.length_map, hm.rows]

/-- **C55**: a saved non-empty list of vectors (of any lengths) is loaded back, each entry as printed and read. -/
theorem C55_list_roundtrip {D : Type} (F : NumFmt D) (fs : Fs Char) (dir obj : String) {l : List (List D)} (hne : l ≠ []) (rnd : D → D)
    (hw : ∀ r ∈ l, ∀ x ∈ r, F.Word x) (hp : ∀ r ∈ l, ∀ x ∈ r, F.parse (F.print x) = some (rnd x)) :
    TextArch.loadList F (TextArch.saveList F fs dir obj l) dir obj = some (l.map fun r => r.map rnd) := by
  refine loadRaw_of (write_self _ _ _) ?_ (by simpa using hne)
  have : (l.flatMap fun x => format F ⟨1, x.length, [x]⟩ ++ ['\n']) =
      (l.map fun r => joinWith ' ' (r.map F.print)).flatMap fun s => s ++ ['\n'] := by
    rw [List.flatMap_map]
    simp only [format_vec]
  rw [this, pieces_flat]
  · exact readLines_print _ hw hp
  · intro s hs
    obtain ⟨r, hr, rfl⟩ := List.mem_map.1 hs
    exact row_no_newline r (hw r hr)

/-- **C55**: if one number cannot be read back (`std::stod` throws, e.g. on a subnormal), the whole load fails. -/
theorem C55_unreadable_number_fails {D : Type} (F : NumFmt D) (fs : Fs Char) (dir obj : String) {l : List (List D)}
    (hw : ∀ r ∈ l, ∀ x ∈ r, F.Word x) (hbad : ∃ r ∈ l, ∃ x ∈ r, F.parse (F.print x) = none) :
    TextArch.loadList F (TextArch.saveList F fs dir obj l) dir obj = none := by
  unfold TextArch.loadList loadRaw TextArch.saveList
  rw [write_self, Option.bind_some]
  have : (l.flatMap fun x => format F ⟨1, x.length, [x]⟩ ++ ['\n']) =
      (l.map fun r => joinWith ' ' (r.map F.print)).flatMap fun s => s ++ ['\n'] := by
    rw [List.flatMap_map]
    simp only [format_vec]
  rw [this, pieces_flat _ _ (by
    intro s hs
    obtain ⟨r, hr, rfl⟩ := List.mem_map.1 hs
    exact row_no_newline r (hw r hr))]
  have hcells : ∀ r : List D, (∃ x ∈ r, F.parse (F.print x) = none) → readCells F (r.map F.print) = none := by
    intro r
    induction r with
    | nil => rintro ⟨x, hx, -⟩; simp at hx
    | cons y r ih =>
      rintro ⟨x, hx, e⟩
      simp only [List.map_cons, readCells]
      rcases List.mem_cons.1 hx with rfl | hx
      · rw [e]; rfl
      · rw [ih ⟨x, hx, e⟩]; cases F.parse (F.print y) <;> rfl
  have hlines : ∀ l : List (List D), (∀ r ∈ l, ∀ x ∈ r, F.Word x) → (∃ r ∈ l, ∃ x ∈ r, F.parse (F.print x) = none) →
      readLines F (l.map fun r => joinWith ' ' (r.map F.print)) = none := by
    intro l
    induction l with
    | nil => rintro - ⟨x, hx, -⟩; simp at hx
    | cons y l ih =>
      rintro hw ⟨r, hr, e⟩
      simp only [List.map_cons, readLines]
      rw [row_cells y (hw y (by simp))]
      rcases List.mem_cons.1 hr with rfl | hr
      · rw [hcells _ e]; rfl
      · rw [ih (fun r hr => hw r (by simp [hr])) ⟨r, hr, e⟩]; cases readCells F (y.map F.print) <;> rfl
  rw [hlines l hw hbad]
  rfl

/-- **C55**: a missing or empty file is refused. -/
theorem C55_missing_or_empty_refused {D : Type} (F : NumFmt D) (junk : Nat → Nat → D) (fs : Fs Char) (dir obj : String)
    (h : fs (TextArch.fname dir obj) = none ∨ fs (TextArch.fname dir obj) = some []) :
    TextArch.loadMat F junk fs dir obj = none ∧ TextArch.loadList F fs dir obj = none := by
  have : loadRaw F fs dir obj = none := by
    unfold loadRaw
    rcases h with h | h <;> rw [h] <;> rfl
  unfold TextArch.loadMat TextArch.loadList
  rw [this]
  exact ⟨rfl, rfl⟩

/-- **C55**: saving an object changes nothing about the other objects of the directory. -/
theorem C55_other_objects_untouched {D : Type} (F : NumFmt D) (junk : Nat → Nat → D) (fs : Fs Char) (dir : String) {obj other : String}
    (h : other ≠ obj) (m : TMat D) (l : List (List D)) : ∀ fs' ∈ [TextArch.saveMat F fs dir obj m, TextArch.saveList F fs dir obj l],
      TextArch.loadMat F junk fs' dir other = TextArch.loadMat F junk fs dir other ∧
      TextArch.loadList F fs' dir other = TextArch.loadList F fs dir other := by
  have hp : TextArch.fname dir other ≠ TextArch.fname dir obj := fun e => h (text_fname_inj e)
  intro fs' hfs
  have he : fs' (TextArch.fname dir other) = fs (TextArch.fname dir other) := by
    simp only [List.mem_cons, List.not_mem_nil, or_false] at hfs
    rcases hfs with rfl | rfl <;> exact write_other _ _ hp
  unfold TextArch.loadMat TextArch.loadList loadRaw
  rw [he]
  exact ⟨rfl, rfl⟩

/-- **C55**, the excluded shapes: a matrix without entries comes back as one row without columns. -/
theorem C55_empty_matrix_changes_shape {D : Type} (F : NumFmt D) (junk : Nat → Nat → D) (fs : Fs Char) (dir obj : String) (m : TMat D)
    (h : m.rows * m.cols = 0) : TextArch.loadMat F junk (TextArch.saveMat F fs dir obj m) dir obj = some ⟨1, 0, [[]]⟩ := by
  have hraw : loadRaw F (TextArch.saveMat F fs dir obj m) dir obj = some [[]] := by
    refine loadRaw_of (write_self _ _ _) ?_ (by simp)
    unfold format
    rw [if_pos h]
    rfl
  unfold TextArch.loadMat
  rw [hraw]
  rfl

/-- **C55** does not hold for every ill-formed file: a line shorter than the first is accepted, its missing entries are uninitialised. -/
theorem C55_short_line_is_accepted {D : Type} (F : NumFmt D) (junk : Nat → Nat → D) (fs : Fs Char) (dir obj : String) (a b c : D)
    (hw : F.Word a ∧ F.Word b ∧ F.Word c) (hp : F.parse (F.print a) = some a ∧ F.parse (F.print b) = some b ∧ F.parse (F.print c) = some c) :
    TextArch.loadMat F junk (TextArch.saveList F fs dir obj [[a, b], [c]]) dir obj = some ⟨2, 2, [[a, b], [c, junk 1 1]]⟩ := by
  have hraw := C55_list_roundtrip F fs dir obj (l := [[a, b], [c]]) (by simp) id (by
    intro r hr x hx
    simp only [List.mem_cons, List.not_mem_nil, or_false] at hr
    rcases hr with rfl | rfl <;> simp only [List.mem_cons, List.not_mem_nil, or_false] at hx
    · rcases hx with rfl | rfl
      exacts [hw.1, hw.2.1]
    · subst hx; exact hw.2.2) (by
    intro r hr x hx
    simp only [List.mem_cons, List.not_mem_nil, or_false] at hr
    rcases hr with rfl | rfl <;> simp only [List.mem_cons, List.not_mem_nil, or_false] at hx
    · rcases hx with rfl | rfl
      exacts [hp.1, hp.2.1]
    · subst hx; exact hp.2.2)
  unfold TextArch.loadMat
  unfold TextArch.loadList at hraw
  rw [hraw]
  rfl

/-- **C55**: the text archive is not exact.  If numbers are printed with the nearest 15- or 16-digit decimal (Eigen's "full precision" for
doubles, depending on its version) and read back correctly rounded, the double `0.1 + 0.2` is printed as `0.3` and comes back as another
double. -/
theorem C55_text_is_lossy {p : Nat} (hp : p = 15 ∨ p = 16) (F : NumFmt F64) (fs : Fs Char) (dir obj : String)
    (hF : ∀ q : ℚ, F64.rnd q = F64.of q → F.Word (F64.of q) ∧ F.parse (F.print (F64.of q)) = some (F64.rnd (decimal p q) : F64)) :
    ∃ x y : F64, x = (Scalar.lit (1 / 10) : F64) + Scalar.lit (2 / 10) ∧ y ≠ x ∧
      TextArch.loadList F (TextArch.saveList F fs dir obj [[x]]) dir obj = some [[y]] := by
  have hx : (Scalar.lit (1 / 10) : F64) + Scalar.lit (2 / 10) = F64.of (5404319552844596 / 2 ^ 54) := by decide +kernel
  have hd : decimal p (5404319552844596 / 2 ^ 54) = 3 / 10 := by
    rcases hp with rfl | rfl <;> decide +kernel
  have hr : F64.rnd (5404319552844596 / 2 ^ 54) = F64.of (5404319552844596 / 2 ^ 54) := by decide +kernel
  have hn : (F64.rnd (3 / 10) : F64) ≠ F64.of (5404319552844596 / 2 ^ 54) := by decide +kernel
  refine ⟨_, F64.rnd (3 / 10), rfl, ?_, ?_⟩
  · rw [hx]; exact hn
  · rw [hx]
    have := C55_list_roundtrip F fs dir obj (l := [[F64.of (5404319552844596 / 2 ^ 54)]]) (by simp) (fun _ => F64.rnd (3 / 10))
      (by intro r hr' x hx'
          simp only [List.mem_cons, List.not_mem_nil, or_false] at hr'
          subst hr'
          simp only [List.mem_cons, List.not_mem_nil, or_false] at hx'
          subst hx'
          exact (hF _ hr).1)
      (by intro r hr' x hx'
          simp only [List.mem_cons, List.not_mem_nil, or_false] at hr'
          subst hr'
          simp only [List.mem_cons, List.not_mem_nil, or_false] at hx'
          subst hx'
          exact (hF _ hr).2.trans (by rw [hd]; rfl))
    exact this

/-- a formatter as assumed by `C55_text_is_lossy` exists (numbers coded in unary) -/
example (p : Nat) : ∃ F : NumFmt F64, ∀ q : ℚ, F64.rnd q = F64.of q →
    F.Word (F64.of q) ∧ F.parse (F.print (F64.of q)) = some (F64.rnd (decimal p q) : F64) := by
  refine ⟨⟨fun x => match x with
      | .fin q => List.replicate (Encodable.encode (decimal p q) + 1) '1'
      | _ => ['n'],
    fun s => (Encodable.decode (α := ℚ) (s.length - 1)).map F64.rnd⟩, fun q _ => ⟨⟨by simp, ?_, ?_⟩, ?_⟩⟩
  · intro h; exact absurd (List.eq_of_mem_replicate h) (by decide)
  · intro h; exact absurd (List.eq_of_mem_replicate h) (by decide)
  · simp; rfl

/-- the other hypotheses of C55: a 1×2 matrix -/
example : (⟨1, 2, [[1, 2]]⟩ : TMat Nat).Proper := ⟨by decide, by decide, rfl, by simp⟩

end Limbo
