import Verif.Spec.Archive
import Mathlib.Tactic.Linarith
import Mathlib.Tactic.NormNum
import Mathlib.Data.List.Nodup

/-! Lemmas about archives. -/

namespace Limbo

/-! ## file names -/

theorem bin_fname_inj {dir a b : String} (h : BinArch.fname dir a = BinArch.fname dir b) : a = b := by
  unfold BinArch.fname at h
  exact String.append_right_inj _ |>.1 (String.append_left_inj _ |>.1 h)

theorem text_fname_inj {dir a b : String} (h : TextArch.fname dir a = TextArch.fname dir b) : a = b := by
  unfold TextArch.fname at h
  exact String.append_right_inj _ |>.1 (String.append_left_inj _ |>.1 h)

theorem write_self {χ : Type} (fs : Fs χ) (p : String) (c : List χ) : fs.write p c p = some c := if_pos rfl

theorem write_other {χ : Type} (fs : Fs χ) {p q : String} (c : List χ) (h : q ≠ p) : fs.write p c q = fs q := if_neg h

namespace BinArch

/-! ## numbers in memory -/

theorem leBytes_length (k n : Nat) : (leBytes k n).length = k := by
  induction k generalizing n with
  | zero => rfl
  | succ k ih => simp [leBytes, ih]

theorem leVal_leBytes (k n : Nat) (h : n < 256 ^ k) : leVal (leBytes k n) = n := by
  induction k generalizing n with
  | zero => simp at h; subst h; rfl
  | succ k ih =>
    simp only [leBytes, leVal]
    rw [ih _ (by rw [Nat.div_lt_iff_lt_mul (by norm_num)]; rwa [pow_succ] at h)]
    omega

theorem read_append (a b old : List Byte) (h : a.length = old.length) : InStream.read ⟨a ++ b, true⟩ old = (a, ⟨b, true⟩) := by
  unfold InStream.read
  simp only [if_true]
  rw [← h, List.take_left', List.drop_left' rfl, List.drop_eq_nil_of_le (by rw [List.length_append]; omega)]
  · simp
  · rfl

theorem toInt_small {n : Nat} (h : n < 2 ^ 63) : (BitVec.ofNat 64 n).toInt = (n : Int) := by
  rw [BitVec.toInt_eq_toNat_of_lt (by rw [BitVec.toNat_ofNat]; omega), BitVec.toNat_ofNat, Nat.mod_eq_of_lt (by omega)]

theorem words_flat (l : List (BitVec 64)) (n : Nat) (h : n = l.length) : words n (l.flatMap fun w => leBytes 8 w.toNat) = l := by
  subst h
  induction l with
  | nil => rfl
  | cons w l ih =>
    simp only [List.length_cons, words, List.flatMap_cons]
    rw [List.take_left' (leBytes_length _ _), List.drop_left' (leBytes_length _ _), ih,
      leVal_leBytes _ _ (by have := w.isLt; norm_num; omega)]
    simp

theorem flat_length (l : List (BitVec 64)) : (l.flatMap fun w => leBytes 8 w.toNat).length = 8 * l.length := by
  induction l with
  | nil => rfl
  | cons w l ih => simp only [List.flatMap_cons, List.length_append, ih, leBytes_length, List.length_cons]; omega

theorem read_write (junk : Nat → Byte) {m : BMat} (hm : m.Fits) (rest : List Byte) :
    readBinary junk ⟨writeBinary m ++ rest, true⟩ = some (m, ⟨rest, true⟩) := by
  unfold readBinary writeBinary
  have e1 : InStream.read ⟨(leBytes 8 m.rows ++ leBytes 8 m.cols ++ m.data.flatMap fun w => leBytes 8 w.toNat) ++ rest, true⟩ (leBytes 8 0) =
      (leBytes 8 m.rows, ⟨leBytes 8 m.cols ++ ((m.data.flatMap fun w => leBytes 8 w.toNat) ++ rest), true⟩) := by
    rw [List.append_assoc, List.append_assoc]
    exact read_append _ _ _ (by rw [leBytes_length, leBytes_length])
  have e2 : InStream.read ⟨leBytes 8 m.cols ++ ((m.data.flatMap fun w => leBytes 8 w.toNat) ++ rest), true⟩ (leBytes 8 0) =
      (leBytes 8 m.cols, ⟨(m.data.flatMap fun w => leBytes 8 w.toNat) ++ rest, true⟩) :=
    read_append _ _ _ (by rw [leBytes_length, leBytes_length])
  simp only [e1, e2]
  have hr := hm.rows
  have hc := hm.cols
  rw [leVal_leBytes 8 m.rows (by norm_num; omega), leVal_leBytes 8 m.cols (by norm_num; omega), toInt_small hr, toInt_small hc]
  have hb : ((m.rows : Int) * m.cols * 8) < 2 ^ 63 := by exact_mod_cast hm.bytes
  rw [if_neg (by push Not; exact ⟨by omega, by omega, hb⟩)]
  simp only [Int.toNat_natCast]
  rw [read_append _ _ _ (by rw [flat_length, hm.size]; simp)]
  simp only [words_flat _ _ hm.size.symm]

theorem readVec_write (junk : Nat → Byte) {m : BMat} (hm : m.Fits) (h1 : m.cols = 1) (rest : List Byte) :
    readVec junk ⟨writeBinary m ++ rest, true⟩ = some (m, ⟨rest, true⟩) := by
  unfold readVec
  rw [read_write junk hm]
  exact if_pos h1

theorem readMany_write (junk : Nat → Byte) (l : List BMat) (hl : ∀ m ∈ l, m.Fits ∧ m.cols = 1) :
    readMany junk l.length ⟨l.flatMap writeBinary, true⟩ = some l := by
  induction l with
  | nil => rfl
  | cons m l ih =>
    simp only [List.length_cons, readMany, List.flatMap_cons]
    rw [readVec_write junk (hl m (by simp)).1 (hl m (by simp)).2]
    simp only [Option.bind_some]
    rw [ih fun x hx => hl x (by simp [hx])]
    rfl

theorem openIn_some {fs : Fs Byte} {p : String} {c : List Byte} (h : fs p = some c) : openIn fs p = ⟨c, true⟩ := by
  unfold openIn; rw [h]

theorem loadMat_of {junk : Nat → Byte} {fs : Fs Byte} {dir obj : String} {m : BMat} (hm : m.Fits)
    (h : fs (fname dir obj) = some (writeBinary m)) : loadMat junk fs dir obj = some m := by
  unfold loadMat
  rw [openIn_some h]
  have := read_write junk hm []
  rw [List.append_nil] at this
  rw [this]; rfl

theorem loadList_of {junk : Nat → Byte} {fs : Fs Byte} {dir obj : String} {l : List BMat} (hl : ∀ m ∈ l, m.Fits ∧ m.cols = 1)
    (hne : l ≠ []) (hs : l.length < 2 ^ 31)
    (h : fs (fname dir obj) = some (leBytes 4 (l.length % 2 ^ 32) ++ l.flatMap writeBinary)) : loadList junk fs dir obj = some l := by
  unfold loadList
  rw [openIn_some h]
  simp only
  rw [if_neg (by simp [leBytes_length])]
  rw [read_append _ _ _ (by rw [leBytes_length, leBytes_length])]
  simp only
  rw [Nat.mod_eq_of_lt (by omega), leVal_leBytes 4 _ (by norm_num; omega)]
  have : (BitVec.ofNat 32 l.length).toInt = (l.length : Int) := by
    rw [BitVec.toInt_eq_toNat_of_lt (by rw [BitVec.toNat_ofNat]; omega), BitVec.toNat_ofNat, Nat.mod_eq_of_lt (by omega)]
  rw [this, Int.toNat_natCast, readMany_write junk l hl]
  simp only [Option.bind_some]
  rw [if_neg (by simpa using hne)]

end BinArch

/-! ## text -/

namespace TextArch

theorem pieces_word (sep : Char) (w rest cur : List Char) (hw : sep ∉ w) : pieces sep cur (w ++ sep :: rest) =
    (cur.reverse ++ w) :: pieces sep [] rest := by
  induction w generalizing cur with
  | nil => simp [pieces]
  | cons c w ih =>
    simp only [List.mem_cons, not_or] at hw
    simp only [List.cons_append, pieces]
    rw [if_neg (Ne.symm hw.1), ih _ hw.2]
    simp

theorem pieces_last (sep : Char) (w cur : List Char) (hw : sep ∉ w) (hne : cur.reverse ++ w ≠ []) : pieces sep cur w = [cur.reverse ++ w] := by
  induction w generalizing cur with
  | nil =>
    unfold pieces
    rw [if_neg (by simpa using hne)]; simp
  | cons c w ih =>
    simp only [List.mem_cons, not_or] at hw
    simp only [pieces]
    rw [if_neg (Ne.symm hw.1), ih _ hw.2 (by simp)]
    simp

/-- cells of a printed row -/
theorem pieces_join (sep : Char) (ws : List (List Char)) (h : ∀ w ∈ ws, w ≠ [] ∧ sep ∉ w) : pieces sep [] (joinWith sep ws) = ws := by
  induction ws with
  | nil => rfl
  | cons w ws ih =>
    cases ws with
    | nil =>
      simp only [joinWith]
      rw [pieces_last _ _ _ (h w (by simp)).2 (by simpa using (h w (by simp)).1)]
      simp
    | cons v vs =>
      simp only [joinWith]
      rw [pieces_word _ _ _ _ (h w (by simp)).2, ih fun x hx => h x (by simp [hx])]
      simp

/-- lines of a printed matrix -/
theorem pieces_join_end (sep : Char) (ws : List (List Char)) (hne : ws ≠ []) (h : ∀ w ∈ ws, sep ∉ w) :
    pieces sep [] (joinWith sep ws ++ [sep]) = ws := by
  induction ws with
  | nil => exact absurd rfl hne
  | cons w ws ih =>
    cases ws with
    | nil =>
      simp only [joinWith]
      rw [pieces_word _ _ _ _ (h w (by simp))]
      simp [pieces]
    | cons v vs =>
      simp only [joinWith]
      rw [List.append_assoc, List.cons_append, pieces_word _ _ _ _ (h w (by simp)), ih (by simp) fun x hx => h x (by simp [hx])]
      simp

theorem mem_join {sep c : Char} {ws : List (List Char)} (h : c ∈ joinWith sep ws) : c = sep ∨ ∃ w ∈ ws, c ∈ w := by
  induction ws with
  | nil => simp [joinWith] at h
  | cons w ws ih =>
    cases ws with
    | nil => exact Or.inr ⟨w, by simp, h⟩
    | cons v vs =>
      simp only [joinWith, List.mem_append, List.mem_cons] at h
      rcases h with h | h | h
      · exact Or.inr ⟨w, by simp, h⟩
      · exact Or.inl h
      · rcases ih h with h | ⟨x, hx, hc⟩
        · exact Or.inl h
        · exact Or.inr ⟨x, by simp [hx], hc⟩

theorem pieces_flat (sep : Char) (ls : List (List Char)) (h : ∀ l ∈ ls, sep ∉ l) : pieces sep [] (ls.flatMap fun l => l ++ [sep]) = ls := by
  induction ls with
  | nil => rfl
  | cons l ls ih =>
    simp only [List.flatMap_cons, List.append_assoc, List.cons_append, List.nil_append]
    rw [pieces_word _ _ _ _ (h l (by simp)), ih fun x hx => h x (by simp [hx])]
    simp

variable {D : Type} {F : NumFmt D}

theorem readCells_print {rnd : D → D} (r : List D) (h : ∀ x ∈ r, F.parse (F.print x) = some (rnd x)) :
    readCells F (r.map F.print) = some (r.map rnd) := by
  induction r with
  | nil => rfl
  | cons x r ih =>
    simp only [List.map_cons, readCells]
    rw [h x (by simp), ih fun y hy => h y (by simp [hy])]
    rfl

theorem row_cells (r : List D) (h : ∀ x ∈ r, F.Word x) : pieces ' ' [] (joinWith ' ' (r.map F.print)) = r.map F.print :=
  pieces_join _ _ fun w hw => by
    obtain ⟨x, hx, rfl⟩ := List.mem_map.1 hw
    exact ⟨(h x hx).1, (h x hx).2.1⟩

theorem row_no_newline (r : List D) (h : ∀ x ∈ r, F.Word x) : '\n' ∉ joinWith ' ' (r.map F.print) := by
  intro hc
  rcases mem_join hc with e | ⟨w, hw, hc⟩
  · exact absurd e (by decide)
  · obtain ⟨x, hx, rfl⟩ := List.mem_map.1 hw
    exact (h x hx).2.2 hc

theorem readLines_print {rnd : D → D} (e : List (List D)) (hw : ∀ r ∈ e, ∀ x ∈ r, F.Word x)
    (h : ∀ r ∈ e, ∀ x ∈ r, F.parse (F.print x) = some (rnd x)) :
    readLines F (e.map fun r => joinWith ' ' (r.map F.print)) = some (e.map fun r => r.map rnd) := by
  induction e with
  | nil => rfl
  | cons r e ih =>
    simp only [List.map_cons, readLines]
    rw [row_cells r (hw r (by simp)), readCells_print r (h r (by simp)), ih (fun x hx => hw x (by simp [hx])) fun x hx => h x (by simp [hx])]
    rfl

theorem format_vec (x : List D) : format F ⟨1, x.length, [x]⟩ = joinWith ' ' (x.map F.print) := by
  unfold format
  cases x with
  | nil => rfl
  | cons a x => rw [if_neg (by simp)]; rfl

theorem loadRaw_of {fs : Fs Char} {dir obj : String} {cs : List Char} {v : List (List D)} (h : fs (fname dir obj) = some cs)
    (hr : readLines F (pieces '\n' [] cs) = some v) (hne : v ≠ []) : loadRaw F fs dir obj = some v := by
  unfold loadRaw
  rw [h, Option.bind_some, hr, Option.bind_some, if_neg (by simpa using hne)]

theorem junk_free (junk : Nat → Nat → D) (v : List (List D)) (cols : Nat) (h : ∀ r ∈ v, r.length = cols) :
    v.mapIdx (fun i r => r ++ (List.range (cols - r.length)).map fun j => junk i (r.length + j)) = v := by
  apply List.ext_getElem
  · simp
  · intro i h1 h2
    simp [h _ (List.getElem_mem h2)]

end TextArch

open BinArch in
theorem gp_paths_nodup (dir : String) (kp mp : Option BMat) (xs : List BMat) (ys L a : BMat) :
    ((gpWrites dir kp mp xs ys L a).map Prod.fst).Nodup := by
  have inj : ∀ {a b : String}, a ≠ b → BinArch.fname dir a ≠ BinArch.fname dir b := fun h e => h (bin_fname_inj e)
  have h : (["kernel_params", "mean_params", "samples", "observations", "matrixL", "alpha"].map (BinArch.fname dir)).Nodup :=
    List.Nodup.map (fun _ _ e => bin_fname_inj e) (by decide)
  refine List.Sublist.nodup ?_ h
  unfold gpWrites
  simp only [List.map_append, List.map_cons, List.map_nil]
  cases kp <;> cases mp <;> simp [List.sublist_cons_of_sublist]

end Limbo
