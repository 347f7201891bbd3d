import Verif.Basic.Scalar
import Mathlib.Analysis.Real.Sqrt

/-!
# Two concrete `double`-like types

`Xt K` adds NaN and the two infinities to an ordered field `K` and performs every operation as
"exact result, then round" with a rounding function `rnd : K → Xt K`.

* `XR  = Xt ℝ` with exact rounding: real numbers plus IEEE special values.
* `F64 = Xt ℚ` with round-to-nearest-even to 53 significant bits, subnormals and overflow: IEEE-754 binary64
  except that `-0` is identified with `+0`.  Computable, evaluated by the kernel in counter-examples.
-/

namespace Limbo

/-- A field extended with NaN and infinities. -/
inductive Xt (K : Type) where
  | nan
  | ninf
  | fin (x : K)
  | pinf
deriving DecidableEq

namespace Xt
variable {K : Type}

/-- `operator<=` of IEEE-754. -/
def le [LE K] [DecidableLE K] : Xt K → Xt K → Bool
  | nan, _ => false
  | _, nan => false
  | ninf, _ => true
  | _, pinf => true
  | fin a, fin b => decide (a ≤ b)
  | _, _ => false

/-- `operator<` of IEEE-754. -/
def lt [LT K] [DecidableLT K] : Xt K → Xt K → Bool
  | nan, _ => false
  | _, nan => false
  | ninf, ninf => false
  | ninf, _ => true
  | pinf, _ => false
  | _, pinf => true
  | fin a, fin b => decide (a < b)
  | fin _, ninf => false

/-- `std::isnan`. -/
def isNaN : Xt K → Bool
  | nan => true
  | _ => false

/-- `std::isinf`. -/
def isInf : Xt K → Bool
  | ninf => true
  | pinf => true
  | _ => false

section
variable [Field K] [LinearOrder K]

/-- IEEE negation. -/
def neg : Xt K → Xt K
  | nan => nan
  | ninf => pinf
  | pinf => ninf
  | fin a => fin (-a)

/-- IEEE addition: `inf + (-inf)` is NaN. -/
def add (rnd : K → Xt K) : Xt K → Xt K → Xt K
  | nan, _ => nan
  | _, nan => nan
  | ninf, pinf => nan
  | pinf, ninf => nan
  | ninf, _ => ninf
  | _, ninf => ninf
  | pinf, _ => pinf
  | _, pinf => pinf
  | fin a, fin b => rnd (a + b)

/-- Infinity times a finite number (`inf * 0` is NaN). -/
def infMul (pos : Bool) (a : K) : Xt K :=
  if a = 0 then nan else if (decide (0 < a)) = pos then pinf else ninf

/-- IEEE multiplication. -/
def mul (rnd : K → Xt K) : Xt K → Xt K → Xt K
  | nan, _ => nan
  | _, nan => nan
  | ninf, ninf => pinf
  | ninf, pinf => ninf
  | pinf, ninf => ninf
  | pinf, pinf => pinf
  | ninf, fin a => infMul false a
  | pinf, fin a => infMul true a
  | fin a, ninf => infMul false a
  | fin a, pinf => infMul true a
  | fin a, fin b => rnd (a * b)

/-- IEEE division (`x / 0` is an infinity signed by `x`, the zero being `+0`; `0/0`, `inf/inf` are NaN). -/
def div (rnd : K → Xt K) : Xt K → Xt K → Xt K
  | nan, _ => nan
  | _, nan => nan
  | ninf, ninf => nan
  | ninf, pinf => nan
  | pinf, ninf => nan
  | pinf, pinf => nan
  | ninf, fin a => if a < 0 then pinf else ninf
  | pinf, fin a => if a < 0 then ninf else pinf
  | fin _, ninf => fin 0
  | fin _, pinf => fin 0
  | fin a, fin b =>
    if b = 0 then (if a = 0 then nan else if 0 < a then pinf else ninf) else rnd (a / b)

/-- IEEE subtraction. -/
def sub (rnd : K → Xt K) (a b : Xt K) : Xt K := add rnd a (neg b)

end

end Xt

/-- What is assumed of a rounding function: never NaN, monotone. -/
structure LawfulRnd {K : Type} [LE K] [DecidableLE K] (rnd : K → Xt K) : Prop where
  not_nan : ∀ x, (rnd x).isNaN = false
  mono : ∀ x y, x ≤ y → (rnd x).le (rnd y) = true

/-! ## `XR`: exact reals with IEEE special values -/

/-- Real numbers with IEEE special values, exact arithmetic. -/
def XR : Type := Xt ℝ

namespace XR
/-- Injection of a real number. -/
def fin (x : ℝ) : XR := Xt.fin x

open Classical in
noncomputable instance : Scalar XR where
  add := Xt.add Xt.fin
  sub := Xt.sub Xt.fin
  mul := Xt.mul Xt.fin
  div := Xt.div Xt.fin
  neg := Xt.neg
  lt := Xt.lt
  le := Xt.le
  isNaN := Xt.isNaN
  isInf := Xt.isInf
  lit q := Xt.fin (q : ℝ)
  negInf := Xt.ninf

/-- IEEE square root: NaN on negative numbers. -/
noncomputable def sqrt : XR → XR
  | Xt.nan => Xt.nan
  | Xt.ninf => Xt.nan
  | Xt.pinf => Xt.pinf
  | Xt.fin x => open Classical in if x < 0 then Xt.nan else Xt.fin (Real.sqrt x)

/-- Euclidean norm of a vector (sum of squares, then square root). -/
noncomputable def norm (v : List XR) : XR :=
  sqrt (v.foldl (fun acc x => acc + x * x) (XR.fin 0))

noncomputable instance : ScalarFn XR where
  sqrt := sqrt
  norm := norm

end XR

/-! ## `F64`: IEEE-754 binary64 -/

/-- binary64 numbers (as rationals), with special values; `-0` is identified with `+0`. -/
def F64 : Type := Xt ℚ

namespace F64

/-- Round-half-to-even of a non-negative rational to an integer. -/
def roundEven (q : ℚ) : Nat :=
  let n := q.num.toNat
  let d := q.den
  let k := n / d
  let r := n % d
  if 2 * r < d then k else if d < 2 * r then k + 1 else if k % 2 = 0 then k else k + 1

/-- `floor (log2 q)` for `q > 0`. -/
def ilog2 (q : ℚ) : Int :=
  let n := q.num.toNat
  let d := q.den
  let e : Int := (Nat.log2 n : Int) - (Nat.log2 d : Int)
  -- 2^e*d <= n ?  (otherwise the true exponent is e-1)
  if (2 : ℚ) ^ e ≤ q then e else e - 1

/-- Round a positive rational to binary64: 53 significant bits, exponent at least `-1074` for the
last place (subnormals). -/
def rndPos (q : ℚ) : ℚ :=
  let e := max (ilog2 q - 52) (-1074)
  (roundEven (q / (2 : ℚ) ^ e) : ℚ) * (2 : ℚ) ^ e

/-- Largest finite double. -/
def maxFinite : ℚ := (2 ^ 53 - 1) * 2 ^ 971

/-- Round-to-nearest-even to binary64 with overflow to infinity. -/
def rnd (q : ℚ) : Xt ℚ :=
  if q = 0 then Xt.fin 0
  else if 0 < q then (let r := rndPos q; if r ≤ maxFinite then Xt.fin r else Xt.pinf)
  else (let r := rndPos (-q); if r ≤ maxFinite then Xt.fin (-r) else Xt.ninf)

instance : Scalar F64 where
  add := Xt.add rnd
  sub := Xt.sub rnd
  mul := Xt.mul rnd
  div := Xt.div rnd
  neg := Xt.neg
  lt := Xt.lt
  le := Xt.le
  isNaN := Xt.isNaN
  isInf := Xt.isInf
  lit := rnd
  negInf := Xt.ninf

/-- Smallest natural `m` with `m^2 ≥ n` rounded down: integer square root used by `sqrtPos`. -/
def isqrt (n : Nat) : Nat := Nat.sqrt n

/-- Correctly rounded square root of a positive rational: take the integer square root of
`q * 4^k` with enough bits, append a sticky bit when it is inexact, then round. -/
def sqrtPos (q : ℚ) : Xt ℚ :=
  let k : Nat := 1200
  let n := (q * 4 ^ k).num.toNat / (q * 4 ^ k).den
  let r := isqrt n
  let exact : Bool := decide (((r : ℚ) / 2 ^ k) * ((r : ℚ) / 2 ^ k) = q)
  rnd (((if exact then 4 * (r : ℚ) else 4 * (r : ℚ) + 1) / 4) / 2 ^ k)

/-- `std::sqrt`. -/
def sqrt : F64 → F64
  | Xt.nan => Xt.nan
  | Xt.ninf => Xt.nan
  | Xt.pinf => Xt.pinf
  | Xt.fin x => if x < 0 then Xt.nan else if x = 0 then Xt.fin 0 else sqrtPos x

instance : ScalarFn F64 where
  sqrt := sqrt
  norm v := sqrt (v.foldl (fun acc x => acc + x * x) (lit 0))

/-- The double with (exactly representable) value `q`. -/
abbrev of (q : ℚ) : F64 := Xt.fin q

/-- NaN. -/
abbrev nan : F64 := Xt.nan

instance : DecidableEq F64 := inferInstanceAs (DecidableEq (Xt ℚ))

end F64

end Limbo
