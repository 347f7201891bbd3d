/-!
Model of `serialize/binary_archive.hpp` and `serialize/text_archive.hpp`, byte by byte (character by character), over an abstract
file system.

`none` = a failed assertion, an exception or undefined behaviour.  Simplifications: creating directories and writing files always
succeed; memory is little-endian; `double`s are their 64-bit patterns; `Eigen::Index` is 64-bit, `int` 32-bit.
-/

namespace Limbo

/-- A byte. -/
abbrev Byte := Fin 256

/-- Content of the files, by path. -/
abbrev Fs (χ : Type) := String → Option (List χ)

/-- `std::ofstream out(path, trunc); out << bytes; out.close();` -/
def Fs.write {χ : Type} (fs : Fs χ) (path : String) (content : List χ) : Fs χ := fun p => if p = path then some content else fs p

/-! ## Binary archive -/

namespace BinArch

/-- `fname` — binary_archive.hpp:125-128. -/
def fname (dir obj : String) : String := dir ++ "/" ++ obj ++ ".bin"

/-- The bytes of an unsigned number in memory (little-endian, `k` bytes). -/
def leBytes : Nat → Nat → List Byte
  | 0, _ => []
  | k + 1, n => ⟨n % 256, Nat.mod_lt _ (by decide)⟩ :: leBytes k (n / 256)

/-- The unsigned number made of the given bytes. -/
def leVal : List Byte → Nat
  | [] => 0
  | b :: bs => b.val + 256 * leVal bs

/-- An Eigen matrix of doubles: its sizes and its coefficients in storage (column-major) order, as 64-bit patterns.  A vector is a matrix
with one column. -/
structure BMat where
  rows : Nat
  cols : Nat
  data : List (BitVec 64)
  deriving DecidableEq

/-- `_write_binary` — binary_archive.hpp:144-151. -/
def writeBinary (m : BMat) : List Byte := leBytes 8 m.rows ++ leBytes 8 m.cols ++ m.data.flatMap fun w => leBytes 8 w.toNat

/-- `save(matrix, name)` — binary_archive.hpp:68-75. -/
def saveMat (fs : Fs Byte) (dir obj : String) (m : BMat) : Fs Byte := fs.write (fname dir obj) (writeBinary m)

/-- `save(vector of matrices, name)` — binary_archive.hpp:78-94; the size is converted to a 32-bit `int` (its low 32 bits). -/
def saveList (fs : Fs Byte) (dir obj : String) (l : List BMat) : Fs Byte :=
  fs.write (fname dir obj) (leBytes 4 (l.length % 2 ^ 32) ++ l.flatMap writeBinary)

/-- An `std::ifstream`: what is left to read and whether it is still good. -/
structure InStream where
  rest : List Byte
  good : Bool

/-- `std::ifstream in(path)`; a missing file gives a stream in a failed state. -/
def openIn (fs : Fs Byte) (path : String) : InStream :=
  match fs path with
  | some bs => ⟨bs, true⟩
  | none => ⟨[], false⟩

/-- `in.read(buf, old.length)` into a buffer that contains `old`: a failed stream reads nothing; at the end of the file the buffer is
filled in part and the stream fails. -/
def InStream.read (s : InStream) (old : List Byte) : List Byte × InStream :=
  if s.good then
    (s.rest.take old.length ++ old.drop s.rest.length, ⟨s.rest.drop old.length, decide (old.length ≤ s.rest.length)⟩)
  else (old, s)

/-- Cut the bytes of a matrix into 64-bit words. -/
def words : Nat → List Byte → List (BitVec 64)
  | 0, _ => []
  | k + 1, bs => BitVec.ofNat 64 (leVal (bs.take 8)) :: words k (bs.drop 8)

/-- `_read_binary` — binary_archive.hpp:153-161; `junk` is the uninitialised memory of the resized matrix.  A negative size fails an
assertion, a size of 2^63 bytes or more cannot be allocated. -/
def readBinary (junk : Nat → Byte) (s : InStream) : Option (BMat × InStream) :=
  let r := s.read (leBytes 8 0)
  let c := r.2.read (leBytes 8 0)
  let rows := (BitVec.ofNat 64 (leVal r.1)).toInt
  let cols := (BitVec.ofNat 64 (leVal c.1)).toInt
  if rows < 0 ∨ cols < 0 ∨ 2 ^ 63 ≤ rows * cols * 8 then none
  else
    let n := rows.toNat * cols.toNat
    let d := c.2.read ((List.range (8 * n)).map junk)
    some (⟨rows.toNat, cols.toNat, words n d.1⟩, d.2)

/-- `load(MatrixXd&, name)` — binary_archive.hpp:97-103. -/
def loadMat (junk : Nat → Byte) (fs : Fs Byte) (dir obj : String) : Option BMat :=
  (readBinary junk (openIn fs (fname dir obj))).map (·.1)

/-- `_read_binary` into a `VectorXd`: resizing it to other than one column fails an assertion. -/
def readVec (junk : Nat → Byte) (s : InStream) : Option (BMat × InStream) :=
  (readBinary junk s).bind fun r => if r.1.cols = 1 then some r else none

/-- `load(VectorXd&, name)` — binary_archive.hpp:97-103. -/
def loadVec (junk : Nat → Byte) (fs : Fs Byte) (dir obj : String) : Option BMat :=
  (readVec junk (openIn fs (fname dir obj))).map (·.1)

/-- The reading loop — binary_archive.hpp:116-120. -/
def readMany (junk : Nat → Byte) : Nat → InStream → Option (List BMat)
  | 0, _ => some []
  | k + 1, s => (readVec junk s).bind fun r => (readMany junk k r.2).map (r.1 :: ·)

/-- `load(std::vector<VectorXd>&, name)` — binary_archive.hpp:106-123.  Using the uninitialised `size` when the file is missing or shorter
than 4 bytes is undefined; an empty list fails the final assertion. -/
def loadList (junk : Nat → Byte) (fs : Fs Byte) (dir obj : String) : Option (List BMat) :=
  let s := openIn fs (fname dir obj)
  if s.good = false ∨ s.rest.length < 4 then none
  else
    let r := s.read (leBytes 4 0)
    let size := (BitVec.ofNat 32 (leVal r.1)).toInt
    (readMany junk size.toNat r.2).bind fun l => if l.isEmpty then none else some l

end BinArch

/-! ## Text archive -/

namespace TextArch

/-- `fname` — text_archive.hpp:114-117. -/
def fname (dir obj : String) : String := dir ++ "/" ++ obj ++ ".dat"

/-- How numbers are printed (`operator<<` with Eigen's "full" precision) and read back (`std::stod`; `none` = it throws). -/
structure NumFmt (D : Type) where
  print : D → List Char
  parse : List Char → Option D

/-- Words separated by one character: how Eigen prints the coefficients of a row and the rows of a matrix. -/
def joinWith (sep : Char) : List (List Char) → List Char
  | [] => []
  | [w] => w
  | w :: ws => w ++ sep :: joinWith sep ws

/-- A dense matrix, row by row. -/
structure TMat (D : Type) where
  rows : Nat
  cols : Nat
  e : List (List D)
  deriving DecidableEq

/-- `v.format(_fmt)` — text_archive.hpp:66, 74: coefficients separated by a space, rows by a newline, no padding; a matrix without
coefficients prints nothing (Eigen/src/Core/IO.h, `print_matrix`). -/
def format {D : Type} (F : NumFmt D) (m : TMat D) : List Char :=
  if m.rows * m.cols = 0 then [] else joinWith '\n' (m.e.map fun r => joinWith ' ' (r.map F.print))

/-- `save(matrix, name)` — text_archive.hpp:69-74. -/
def saveMat {D : Type} (F : NumFmt D) (fs : Fs Char) (dir obj : String) (m : TMat D) : Fs Char :=
  fs.write (fname dir obj) (format F m ++ ['\n'])

/-- `save(vector of vectors, name)` — text_archive.hpp:77-85. -/
def saveList {D : Type} (F : NumFmt D) (fs : Fs Char) (dir obj : String) (l : List (List D)) : Fs Char :=
  fs.write (fname dir obj) (l.flatMap fun x => format F ⟨1, x.length, [x]⟩ ++ ['\n'])

/-- Repeated `std::getline(in, cell, sep)` until it fails; `cur` is what has been read of the current piece. A piece without a separator at
the end of the input is returned if it is not empty. -/
def pieces (sep : Char) : List Char → List Char → List (List Char)
  | cur, [] => if cur.isEmpty then [] else [cur.reverse]
  | cur, c :: cs => if c = sep then cur.reverse :: pieces sep [] cs else pieces sep (c :: cur) cs

/-- The numbers of one line — text_archive.hpp:141-145. -/
def readCells {D : Type} (F : NumFmt D) : List (List Char) → Option (List D)
  | [] => some []
  | c :: cs => (F.parse c).bind fun x => (readCells F cs).map (x :: ·)

/-- The lines of the file — text_archive.hpp:140-147. -/
def readLines {D : Type} (F : NumFmt D) : List (List Char) → Option (List (List D))
  | [] => some []
  | l :: ls => (readCells F (pieces ' ' [] l)).bind fun r => (readLines F ls).map (r :: ·)

/-- `_load` — text_archive.hpp:134-150: a missing or empty file fails an assertion. -/
def loadRaw {D : Type} (F : NumFmt D) (fs : Fs Char) (dir obj : String) : Option (List (List D)) :=
  (fs (fname dir obj)).bind fun cs => (readLines F (pieces '\n' [] cs)).bind fun v => if v.isEmpty then none else some v

/-- `load(matrix, name)` — text_archive.hpp:88-96: the first line fixes the number of columns; a longer line writes outside of the matrix,
the end of a shorter one keeps the uninitialised `junk`. -/
def loadMat {D : Type} (F : NumFmt D) (junk : Nat → Nat → D) (fs : Fs Char) (dir obj : String) : Option (TMat D) :=
  (loadRaw F fs dir obj).bind fun v =>
    let cols := (v.headD []).length
    if v.all fun r => decide (r.length ≤ cols) then
      some ⟨v.length, cols, v.mapIdx fun i r => r ++ (List.range (cols - r.length)).map fun j => junk i (r.length + j)⟩
    else none

/-- `load(list of vectors, name)` — text_archive.hpp:99-112. -/
def loadList {D : Type} (F : NumFmt D) (fs : Fs Char) (dir obj : String) : Option (List (List D)) := loadRaw F fs dir obj

end TextArch

/-! ## Interrupted saves -/

/-- A sequence of files being written one after the other. -/
def Fs.writeAll {χ : Type} (fs : Fs χ) : List (String × List χ) → Fs χ
  | [] => fs
  | w :: ws => (fs.write w.1 w.2).writeAll ws

/-- What can be on disk if the process dies during `writeAll`: the first files complete and, unless all are, a prefix of the next one
(possibly empty: the file is truncated when it is opened) or its old content. -/
inductive Fs.Crashed {χ : Type} : Fs χ → List (String × List χ) → Fs χ → Prop
  | before (fs : Fs χ) (ws : List (String × List χ)) : Crashed fs ws fs
  | during (fs : Fs χ) (w : String × List χ) (ws : List (String × List χ)) (n : Nat) : Crashed fs (w :: ws) (fs.write w.1 (w.2.take n))
  | after {fs : Fs χ} {w : String × List χ} {ws : List (String × List χ)} {fs' : Fs χ} :
      Crashed (fs.write w.1 w.2) ws fs' → Crashed fs (w :: ws) fs'

/-- What `GP::save(archive)` writes, in order, with a binary archive — gp.hpp:448-460 (the parameter files only if there are parameters). -/
def gpWrites (dir : String) (kernelParams meanParams : Option BinArch.BMat) (samples : List BinArch.BMat)
    (observations matrixL alpha : BinArch.BMat) : List (String × List Byte) :=
  (kernelParams.toList.map fun m => (BinArch.fname dir "kernel_params", BinArch.writeBinary m)) ++
  (meanParams.toList.map fun m => (BinArch.fname dir "mean_params", BinArch.writeBinary m)) ++
  [(BinArch.fname dir "samples", BinArch.leBytes 4 (samples.length % 2 ^ 32) ++ samples.flatMap BinArch.writeBinary),
   (BinArch.fname dir "observations", BinArch.writeBinary observations),
   (BinArch.fname dir "matrixL", BinArch.writeBinary matrixL),
   (BinArch.fname dir "alpha", BinArch.writeBinary alpha)]

end Limbo
