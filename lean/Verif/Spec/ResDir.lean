import Verif.Model.ResDir

/-! Vocabulary for the result directories. -/

namespace Limbo.Res

/-- A local time as the C library gives it, with a year of four digits (second 60: leap second). -/
structure Time.Valid (t : Time) : Prop where
  year : 1000 ≤ t.year ∧ t.year < 10000
  month : 1 ≤ t.month ∧ t.month ≤ 12
  day : 1 ≤ t.day ∧ t.day ≤ 31
  hour : t.hour < 24
  min : t.min < 60
  sec : t.sec ≤ 60

/-- Everything that statistic `k` of optimizer `i` printed, in order. -/
def printed (i k : ℕ) (l : List Act) : List Char :=
  (l.filterMap fun a => match a with
    | .stat i' k' _ data => if i' = i ∧ k' = k then some data else none
    | .create _ _ _ => none).flatten

/-- Statistic `k` of optimizer `i` was called. -/
def called (i k : ℕ) (l : List Act) : Prop := ∃ name data, Act.stat i k name data ∈ l

/-- The actions are those of optimizers with enabled statistics, each constructed once and before its statistics are called; optimizer `i` has
the directory `dir i`, and its statistic `k` the file name `name i k`. -/
def Proper (dir : ℕ → List Char) (name : ℕ → ℕ → List Char) : List ℕ → List Act → Prop
  | _, [] => True
  | made, .create i en d :: l => i ∉ made ∧ en = true ∧ d = dir i ∧ Proper dir name (i :: made) l
  | made, .stat i k n _ :: l => i ∈ made ∧ n = name i k ∧ Proper dir name made l

end Limbo.Res
