import Verif.Model.Archive
import Mathlib.Data.Int.Log
import Mathlib.Data.Rat.Floor
import Mathlib.Algebra.Order.Round

/-! Vocabulary for the statements about archives. -/

namespace Limbo

/-- A matrix that can exist in memory: as many coefficients as its sizes say, sizes and bytes representable. -/
structure BinArch.BMat.Fits (m : BinArch.BMat) : Prop where
  size : m.data.length = m.rows * m.cols
  rows : m.rows < 2 ^ 63
  cols : m.cols < 2 ^ 63
  bytes : m.rows * m.cols * 8 < 2 ^ 63

/-- A matrix with at least one row and one column. -/
structure TextArch.TMat.Proper {D : Type} (m : TextArch.TMat D) : Prop where
  rows_pos : 0 < m.rows
  cols_pos : 0 < m.cols
  rows : m.e.length = m.rows
  cols : ∀ r ∈ m.e, r.length = m.cols

/-- The printed form of `x` is a word without separators. -/
def TextArch.NumFmt.Word {D : Type} (F : TextArch.NumFmt D) (x : D) : Prop := F.print x ≠ [] ∧ ' ' ∉ F.print x ∧ '\n' ∉ F.print x

/-- The decimal number with `p` significant digits nearest to `x`. -/
def decimal (p : Nat) (x : ℚ) : ℚ :=
  let e : ℤ := Int.log 10 |x| - (p - 1)
  (round (x / 10 ^ e) : ℚ) * 10 ^ e

end Limbo
