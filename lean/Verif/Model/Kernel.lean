import Mathlib.Analysis.SpecialFunctions.Log.Basic
import Mathlib.Analysis.Real.Sqrt
import Verif.Model.LinAlg

/-!
Kernel and mean functors.  Real numbers are exact.  `Eigen::VectorXd` arguments are lists of reals; `at' v i` is `v(i)`.  All
reads are in range when the sizes agree (Eigen asserts it); the theorems assume the sizes agree wherever it matters.
-/

namespace Limbo

open Finset

/-- `v(i)`; `0` stands for an out-of-range read, which no theorem relies on. -/
def at' (v : List ℝ) (i : Nat) : ℝ := v.getD i 0

/-- What a kernel class deriving from `BaseKernel` provides (`kernel`, `params_size`, `params`, `set_params`, `gradient`).
`gradient s x y q` is component `q` of the returned vector. -/
structure KernelImpl where
  St : Type
  new : Nat → St
  kernel : St → List ℝ → List ℝ → ℝ
  paramsSize : St → Nat
  params : St → List ℝ
  setParams : St → List ℝ → St
  gradient : St → List ℝ → List ℝ → Nat → ℝ

/-- `Params::kernel` — kernel.hpp:54-59. -/
structure KernelParams where
  noise : ℝ
  optimizeNoise : Bool

/-- State of `BaseKernel<Params, Kernel>`: the derived kernel, `_noise`, `_noise_p` — kernel.hpp:129-130. -/
structure BaseK (I : KernelImpl) where
  inner : I.St
  noise : ℝ
  noiseP : ℝ

namespace BaseK
variable {I : KernelImpl} (P : KernelParams)

/-- `BaseKernel(dim)` — kernel.hpp:76-79. -/
noncomputable def mk' (dim : Nat) : BaseK I := ⟨I.new dim, P.noise, Real.log √P.noise⟩

/-- `operator()(v1, v2)` with the default indices `-1, -2` — kernel.hpp:81-84. -/
def op (k : BaseK I) (x y : List ℝ) : ℝ := I.kernel k.inner x y + 0

/-- `operator()(v1, v2, i, j)` — kernel.hpp:81-84. -/
noncomputable def opIJ (k : BaseK I) (x y : List ℝ) (i j : Nat) : ℝ :=
  I.kernel k.inner x y + if i = j then k.noise + 1e-8 else 0

/-- `grad(x1, x2, i, j)`, component `q` — kernel.hpp:86-96. -/
noncomputable def gradIJ (k : BaseK I) (x y : List ℝ) (i j q : Nat) : ℝ :=
  if P.optimizeNoise ∧ q = I.paramsSize k.inner then (if i = j then 2 * k.noise else 0) else I.gradient k.inner x y q

/-- `h_params_size()` — kernel.hpp:99-102. -/
def hParamsSize (k : BaseK I) : Nat := I.paramsSize k.inner + if P.optimizeNoise then 1 else 0

/-- `h_params()` — kernel.hpp:105-113. -/
def hParams (k : BaseK I) : List ℝ := if P.optimizeNoise then I.params k.inner ++ [k.noiseP] else I.params k.inner

/-- `set_h_params(p)` — kernel.hpp:116-123. -/
noncomputable def setHParams (k : BaseK I) (p : List ℝ) : BaseK I :=
  let n := hParamsSize P k
  let inner := I.setParams k.inner (p.take (n - if P.optimizeNoise then 1 else 0))
  if P.optimizeNoise then
    -- h_params_size() is evaluated again after set_params
    let np := at' p (hParamsSize P { k with inner := inner } - 1)
    ⟨inner, Real.exp (2 * np), np⟩
  else { k with inner := inner }

end BaseK

/-! ## the four kernels -/

/-- `(v1 - v2).squaredNorm()`. -/
def sqDist (x y : List ℝ) : ℝ := ∑ i ∈ range x.length, (at' x i - at' y i) * (at' x i - at' y i)

/-- `(v1 - v2).norm()`. -/
noncomputable def dist2 (x y : List ℝ) : ℝ := √(sqDist x y)

/-- State shared by `Exp`, `MaternThreeHalves`, `MaternFiveHalves`: `_sf2`, `_l`, `_h_params` — exp.hpp:113-115,
matern_three_halves.hpp:126-128, matern_five_halves.hpp:135-137. -/
structure IsoSt where
  sf2 : ℝ
  l : ℝ
  h : List ℝ

/-- Constructor — exp.hpp:75-79, matern_three_halves.hpp:84-88, matern_five_halves.hpp:86-90 (the three are identical up to the
parameter struct). -/
noncomputable def IsoSt.mk' (sigmaSq l : ℝ) : IsoSt := ⟨sigmaSq, l, [Real.log l, Real.log √sigmaSq]⟩

/-- `set_params` — exp.hpp:87-92, matern_three_halves.hpp:96-101, matern_five_halves.hpp:98-103. -/
noncomputable def IsoSt.set (_ : IsoSt) (p : List ℝ) : IsoSt := ⟨Real.exp (2 * at' p 1), Real.exp (at' p 0), p⟩

/-- `kernel::Exp` — exp.hpp:74-116. -/
noncomputable def expKernel (sigmaSq l : ℝ) : KernelImpl where
  St := IsoSt
  new _ := IsoSt.mk' sigmaSq l
  kernel s x y :=
    let lSq := s.l * s.l
    let r := sqDist x y / lSq
    s.sf2 * Real.exp (-0.5 * r)
  paramsSize _ := 2
  params s := s.h
  setParams := IsoSt.set
  gradient s x y q :=
    let lSq := s.l * s.l
    let r := sqDist x y / lSq
    let k := s.sf2 * Real.exp (-0.5 * r)
    if q = 0 then r * k else 2 * k

/-- `kernel::MaternThreeHalves` — matern_three_halves.hpp:83-129. -/
noncomputable def matern32 (sigmaSq l : ℝ) : KernelImpl where
  St := IsoSt
  new _ := IsoSt.mk' sigmaSq l
  kernel s x y :=
    let d := dist2 x y
    let term := √3 * d / s.l
    s.sf2 * (1 + term) * Real.exp (-term)
  paramsSize _ := 2
  params s := s.h
  setParams := IsoSt.set
  gradient s x y q :=
    let d := dist2 x y
    let term := √3 * d / s.l
    let r := Real.exp (-term)
    if q = 0 then s.sf2 * (-term * r + (1 + term) * term * r) else 2 * s.sf2 * (1 + term) * r

/-- `kernel::MaternFiveHalves` — matern_five_halves.hpp:85-138. -/
noncomputable def matern52 (sigmaSq l : ℝ) : KernelImpl where
  St := IsoSt
  new _ := IsoSt.mk' sigmaSq l
  kernel s x y :=
    let d := dist2 x y
    let dSq := d * d
    let lSq := s.l * s.l
    let term1 := √5 * d / s.l
    let term2 := 5 * dSq / (3 * lSq)
    s.sf2 * (1 + term1 + term2) * Real.exp (-term1)
  paramsSize _ := 2
  params s := s.h
  setParams := IsoSt.set
  gradient s x y q :=
    let d := dist2 x y
    let dSq := d * d
    let lSq := s.l * s.l
    let term1 := √5 * d / s.l
    let term2 := 5 * dSq / (3 * lSq)
    let r := Real.exp (-term1)
    if q = 0 then s.sf2 * (r * term1 * (1 + term1 + term2) + (-term1 - 2 * term2) * r) else 2 * s.sf2 * (1 + term1 + term2) * r

/-- State of `SquaredExpARD`: `_sf2`, `_ell`, `_A`, `_input_dim`, `_h_params` — squared_exp_ard.hpp:152-156. -/
structure ArdSt where
  sf2 : ℝ
  ell : Nat → ℝ
  A : Nat → Nat → ℝ
  dim : Nat
  h : List ℝ

/-- `params_size()` — squared_exp_ard.hpp:90. -/
def ArdSt.size (kk : Nat) (s : ArdSt) : Nat := s.dim + s.dim * kk + 1

/-- `set_params` — squared_exp_ard.hpp:96-105. -/
noncomputable def ArdSt.set (kk : Nat) (s : ArdSt) (p : List ℝ) : ArdSt :=
  { s with
    h := p
    ell := fun i => if i < s.dim then Real.exp (at' p i) else s.ell i
    A := fun i j => if i < s.dim ∧ j < kk then at' p ((j + 1) * s.dim + i) else s.A i j
    sf2 := Real.exp (2 * at' p (s.size kk - 1)) }

/-- Constructor — squared_exp_ard.hpp:83-88.  The members that `set_params` overwrites entirely start at `0`. -/
noncomputable def ArdSt.mk' (kk : Nat) (sigmaSq : ℝ) (dim : Nat) : ArdSt :=
  ArdSt.set kk ⟨0, fun _ => 0, fun _ _ => 0, dim, []⟩ (List.replicate (dim + dim * kk) 0 ++ [Real.log √sigmaSq])

/-- The matrix `K = A Aᵀ; K.diagonal() += ell^-2` — squared_exp_ard.hpp:111-112 and 143-144. -/
noncomputable def ArdSt.M (kk : Nat) (s : ArdSt) (a b : Nat) : ℝ :=
  (∑ j ∈ range kk, s.A a j * s.A b j) + if a = b then (s.ell a)⁻¹ * (s.ell a)⁻¹ else 0

/-- `(x1 - x2).transpose() * K * (x1 - x2)` — squared_exp_ard.hpp:113 and 145. -/
noncomputable def ArdSt.quad (kk : Nat) (s : ArdSt) (x y : List ℝ) : ℝ :=
  ∑ a ∈ range s.dim, ∑ b ∈ range s.dim, (at' x a - at' y a) * s.M kk a b * (at' x b - at' y b)

/-- `(x1 - x2).cwiseQuotient(_ell).squaredNorm()` — squared_exp_ard.hpp:148. -/
noncomputable def ArdSt.ratio (s : ArdSt) (x y : List ℝ) (i : Nat) : ℝ :=
  (at' x i - at' y i) / s.ell i * ((at' x i - at' y i) / s.ell i)

/-- `kernel::SquaredExpARD` with `Params::kernel_squared_exp_ard::k() = kk` — squared_exp_ard.hpp:82-157. -/
noncomputable def seArd (kk : Nat) (sigmaSq : ℝ) : KernelImpl where
  St := ArdSt
  new := ArdSt.mk' kk sigmaSq
  kernel s x y :=
    let z := if kk > 0 then s.quad kk x y else (∑ i ∈ range s.dim, s.ratio x y i)
    s.sf2 * Real.exp (-0.5 * z)
  paramsSize := ArdSt.size kk
  params s := s.h
  setParams := ArdSt.set kk
  gradient s x y q :=
    if kk > 0 then
      let z := s.quad kk x y
      let k := s.sf2 * Real.exp (-0.5 * z)
      if q = s.size kk - 1 then 2 * k
      else if q < s.dim then s.ratio x y q * k
      else
        -- segment((j + 1) * _input_dim, _input_dim), entry i
        let j := q / s.dim - 1
        let i := q % s.dim
        (-(∑ a ∈ range s.dim, (at' x a - at' y a) * s.A a j)) * (at' x i - at' y i) * k
    else
      let z := ∑ i ∈ range s.dim, s.ratio x y i
      let k := s.sf2 * Real.exp (-0.5 * z)
      if q = s.size kk - 1 then 2 * k else s.ratio x y q * k

/-! ## mean functors -/

/-- What a mean class provides.  A mean functor receives the GP; the ones in limbo use only `gp.mean_observation()`, passed here as
`mo` (simplification: a user-defined mean reading other parts of the GP is not modelled).  `op s x mo c` is component `c`.
`grad s x mo r q` is entry `(r, q)`, `none` when calling it fails an assertion. -/
structure MeanImpl where
  St : Type
  new : Nat → St
  op : St → List ℝ → (Nat → ℝ) → Nat → ℝ
  hSize : St → Nat
  hParams : St → List ℝ
  setH : St → List ℝ → St
  grad : St → List ℝ → (Nat → ℝ) → Option (Nat → Nat → ℝ)

/-- `mean::NullFunction` — null_function.hpp:57-71; `grad` is `BaseMean::grad`, which asserts — mean.hpp:64-70. -/
def nullMean : MeanImpl where
  St := Nat
  new d := d
  op _ _ _ _ := 0
  hSize _ := 0
  hParams _ := []
  setH s _ := s
  grad _ _ _ := none

/-- `mean::Constant` — constant.hpp:65-100. -/
def constMean (constant : ℝ) : MeanImpl where
  St := Nat × ℝ
  new d := (d, constant)
  op s _ _ _ := s.2
  hSize _ := 1
  hParams s := [s.2]
  setH s p := (s.1, at' p 0)
  grad _ _ _ := some fun _ _ => 1

/-- `mean::Data` — data.hpp:57-66; `grad` asserts. -/
def dataMean : MeanImpl where
  St := Unit
  new _ := ()
  op _ _ mo c := mo c
  hSize _ := 0
  hParams _ := []
  setH s _ := s
  grad _ _ _ := none

/-- State of `FunctionARD`: `_mean_function`, `_tr` (`d` rows, `d + 1` columns), `_h_params` — function_ard.hpp:124-127. -/
structure FArdSt (M : MeanImpl) where
  inner : M.St
  d : Nat
  tr : Nat → Nat → ℝ
  h : List ℝ

namespace FArdSt
variable {M : MeanImpl}

/-- `h_params_size()` — function_ard.hpp:74. -/
def hSize (s : FArdSt M) : Nat := s.d * (s.d + 1) + M.hSize s.inner

/-- `h_params()` — function_ard.hpp:76-84. -/
def hParams (s : FArdSt M) : List ℝ := s.h ++ if M.hSize s.inner > 0 then M.hParams s.inner else []

/-- `set_h_params(p)` — function_ard.hpp:86-95. -/
noncomputable def setH (s : FArdSt M) (p : List ℝ) : FArdSt M :=
  { s with
    h := p.take (s.d * (s.d + 1))
    tr := fun r c => if r < s.d ∧ c < s.d + 1 then at' p (r * (s.d + 1) + c) else s.tr r c
    inner := if M.hSize s.inner > 0 then M.setH s.inner (p.drop (p.length - M.hSize s.inner)) else s.inner }

/-- Constructor — function_ard.hpp:63-72. -/
noncomputable def mk' (d : Nat) : FArdSt M :=
  let s : FArdSt M := ⟨M.new d, d, fun _ _ => 0, []⟩
  let head := (List.range (d * (d + 1))).map fun q => if ∃ i < d, q = i * (d + 2) then 1 else 0
  setH s (head ++ if M.hSize s.inner > 0 then M.hParams s.inner else [])

/-- `operator()` — function_ard.hpp:115-122: `_tr * [m; 1]`. -/
noncomputable def op (s : FArdSt M) (x : List ℝ) (mo : Nat → ℝ) (c : Nat) : ℝ :=
  ∑ j ∈ range (s.d + 1), s.tr c j * if j < s.d then M.op s.inner x mo j else 1

/-- `grad` — function_ard.hpp:97-113. -/
noncomputable def grad (s : FArdSt M) (x : List ℝ) (mo : Nat → ℝ) : Option (Nat → Nat → ℝ) :=
  let own : Nat → Nat → ℝ := fun i q =>
    if i * (s.d + 1) ≤ q ∧ q < i * (s.d + 1) + s.d then M.op s.inner x mo (q - i * (s.d + 1))
    else if q = (i + 1) * (s.d + 1) - 1 then 1 else 0
  if M.hSize s.inner > 0 then do
    let g ← M.grad s.inner x mo
    some fun i q =>
      if q ≥ s.hSize - M.hSize s.inner then
        ∑ j ∈ range (s.d + 1), s.tr i j * if j < s.d then g j (q - (s.hSize - M.hSize s.inner)) else 0
      else own i q
  else some own

end FArdSt

/-- `mean::FunctionARD<Params, MeanFunction>` — function_ard.hpp:62-128. -/
noncomputable def functionArd (M : MeanImpl) : MeanImpl where
  St := FArdSt M
  new := FArdSt.mk'
  op := FArdSt.op
  hSize := FArdSt.hSize
  hParams := FArdSt.hParams
  setH := FArdSt.setH
  grad := FArdSt.grad

end Limbo
