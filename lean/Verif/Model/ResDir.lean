import Mathlib.Data.List.Basic
import Mathlib.Data.Nat.Digits.Defs

/-!
The result directory of an optimizer and the files its statistics write: `tools/sys.hpp`, `BoBase::_make_res_dir`
(`bayes_opt/bo_base.hpp:277-284`), `stat/stat_base.hpp`.

Simplifications: a file is a list of characters, written through at once (every statistic ends its lines with `std::endl`); directory
creation and opening do not fail.  `strftime` is modelled for years 1000–9999.
-/

namespace Limbo.Res

/-- Broken-down local time. -/
structure Time where
  year : ℕ
  month : ℕ
  day : ℕ
  hour : ℕ
  min : ℕ
  sec : ℕ
deriving DecidableEq

/-- A decimal digit. -/
def digit (n : ℕ) : Char := Char.ofNat (48 + n % 10)

/-- Two digits, as `%m`, `%d`, `%H`, `%M`, `%S` of `strftime` print them. -/
def two (n : ℕ) : List Char := [digit (n / 10), digit n]

/-- `%Y` of `strftime` for a year of four digits. -/
def four (n : ℕ) : List Char := [digit (n / 1000), digit (n / 100), digit (n / 10), digit n]

/-- `std::to_string` of a non-negative integer. -/
def dec (n : ℕ) : List Char := if n < 10 then [digit n] else dec (n / 10) ++ [digit n]

/-- `tools::date()` (`tools/sys.hpp:63-70`): `"%Y-%m-%d_%H_%M_%S"`. -/
def date (t : Time) : List Char :=
  four t.year ++ ['-'] ++ two t.month ++ ['-'] ++ two t.day ++ ['_'] ++ two t.hour ++ ['_'] ++ two t.min ++ ['_'] ++ two t.sec

/-- `tools::hostname()` (`tools/sys.hpp:74-81`): the buffer has 50 characters; `gethostname` fails if the name and its terminating zero do
not fit, and the assertion fails (without assertions the buffer is used although it was not filled). -/
def hostname (h : List Char) : Option (List Char) := if h.length + 1 ≤ 50 then some h else none

/-- `_make_res_dir` (`bayes_opt/bo_base.hpp:277-284`): the name of the directory; empty if the statistics are disabled. -/
def resDir (enabled : Bool) (h : List Char) (t : Time) (pid : ℕ) : Option (List Char) :=
  if !enabled then some []
  else (hostname h).map fun h => h ++ ['_'] ++ date t ++ ['_'] ++ dec pid

/-- An output stream: the file it writes to and the position of the next character. -/
structure Stream where
  path : List Char
  pos : ℕ

/-- An optimizer as far as its files are concerned: its directory and, for each statistic, `_log_file` (`none` before the file is made). -/
structure Obj where
  enabled : Bool
  dir : List Char
  log : ℕ → Option Stream

/-- The file system: contents by path (`none`: no such file). -/
abbrev Files := List Char → Option (List Char)

/-- Optimizers that exist, and the files. -/
structure World where
  objs : ℕ → Option Obj
  files : Files

/-- Writing `data` at position `pos` of a file with contents `c`. -/
def overwrite (c : List Char) (pos : ℕ) (data : List Char) : List Char :=
  c.take pos ++ List.replicate (pos - c.length) (Char.ofNat 0) ++ data ++ c.drop (pos + data.length)

/-- The path of a log file: `bo.res_dir() + "/" + name` (`stat/stat_base.hpp:90`). -/
def path (dir name : List Char) : List Char := dir ++ ['/'] ++ name

/-- What optimizers do to the file system. -/
inductive Act where
  /-- object `i` is constructed, in the directory `dir` -/
  | create (i : ℕ) (enabled : Bool) (dir : List Char)
  /-- statistic `k` of object `i`, whose file is called `name`, is called and prints `data` -/
  | stat (i k : ℕ) (name data : List Char)

/-- One action.  `stat` is `_create_log_file(bo, name)` (`stat/stat_base.hpp:86-94`: opens the file, emptying it, if that was not done yet),
then printing; with disabled statistics a statistic returns at once. -/
def step (w : World) : Act → World
  | .create i en dir => { w with objs := fun j => if j = i then some ⟨en, dir, fun _ => none⟩ else w.objs j }
  | .stat i k name data =>
    match w.objs i with
    | none => w
    | some o =>
      if !o.enabled then w
      else
        let s : Stream := (o.log k).getD ⟨path o.dir name, 0⟩
        let files : Files := if (o.log k).isNone then fun p => if p = s.path then some [] else w.files p else w.files
        { objs := fun j => if j = i then some { o with log := fun q => if q = k then some { s with pos := s.pos + data.length } else o.log q }
            else w.objs j
          files := fun p => if p = s.path then some (overwrite ((files p).getD []) s.pos data) else files p }

/-- A sequence of actions, in the order in which they happen (all interleavings of all optimizers, threads and processes). -/
def run (w : World) (l : List Act) : World := l.foldl step w

end Limbo.Res
