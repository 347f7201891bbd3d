import Verif.Basic.Opt

/-! Model of `tools/math.hpp` and of the argument-counting macro of `tools/macros.hpp`. -/

namespace Limbo

variable {α : Type}

/-- C++ `bool` to `int` conversion. -/
def boolToInt (b : Bool) : Int := if b then 1 else 0

/-- `tools::signum` for signed types: `(T(0) < x) - (x < T(0))` (`tools/math.hpp:77-81,87-91`). -/
def signum [Scalar α] (x : α) : Int := boolToInt (lt (lit 0) x) - boolToInt (lt x (lit 0))

/-- `tools::signum` for unsigned types: `T(0) < x` (`tools/math.hpp:71-75`). -/
def signumUnsigned (x : Nat) : Int := boolToInt (decide (0 < x))

/-- `tools::is_nan_or_inf` for a scalar (`tools/math.hpp:95-99`). -/
def isNanOrInfScalar [Scalar α] (x : α) : Bool := isInf x || isNaN x

/-- `tools::is_nan_or_inf` for a vector: loop with early `return true` (`tools/math.hpp:104-111`). -/
def isNanOrInf [Scalar α] : List α → Bool
  | [] => false
  | x :: xs => if isInf x || isNaN x then true else isNanOrInf xs

/-- `tools::make_vector` (`tools/math.hpp:64-69`). -/
def makeVector (x : α) : List α := [x]

/-! ## Argument counting macros -/

/-- `__RSEQ_N()`: the numbers 63, 62, ..., 0 (`tools/macros.hpp:80-87`). -/
def rseqN : List Int := (List.range 64).map fun k : Nat => 63 - (k : Int)

/-- `__VA_NARG__(args...)` (`tools/macros.hpp:70-79`): the 64th macro argument of `_0, args..., 63, ..., 0`, minus 1.
The arguments are integer literals; `none` if there is no 64th argument (ill-formed). -/
def vaNArg (args : List Int) : Option Int := ((0 :: args) ++ rseqN)[63]?.map (· - 1)

/-- `BO_PARAM_ARRAY`: `Name_size()` (`tools/macros.hpp:96-99`), converted to `size_t` (only non-negative values are modelled). -/
def paramArraySize (args : List Int) : Option Int := vaNArg args

/-- `BO_PARAM_ARRAY`: `Name(i)` (`tools/macros.hpp:89-95`); `none` = failed assertion or out-of-range read. -/
def paramArrayGet (args : List Int) (i : Nat) : Option Int :=
  match vaNArg args with
  | some n => if (i : Int) < n then args[i]? else none
  | none => none

/-- `BO_PARAM_VECTOR`: `Name()` (`tools/macros.hpp:102-107`): an Eigen map of `__VA_NARG__` coefficients on the array;
`none` = negative size or reading past the array. -/
def paramVector (args : List Int) : Option (List Int) :=
  match vaNArg args with
  | some n => if 0 ≤ n ∧ n ≤ args.length then some (args.take n.toNat) else none
  | none => none

end Limbo
