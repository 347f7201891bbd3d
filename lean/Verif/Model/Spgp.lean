import Mathlib.LinearAlgebra.Matrix.NonsingularInverse
import Mathlib.Algebra.Order.Floor.Ring
import Mathlib.Analysis.Real.Pi.Bounds
import Mathlib.Analysis.SpecialFunctions.Log.Basic
import Verif.Model.Kernel

/-!
`limbo::model::SPGP` (experimental/model/spgp.hpp): the sparse Gaussian process with pseudo-inputs, over exact real numbers.

Results: `Except.error .ub` when the C++ fails an assertion (limbo's own or Eigen's size checks), reads outside a vector or reads a member
that was never set; `Except.error .inf` when a logarithm of zero is taken, after which the C++ continues with infinities and NaNs that real
numbers cannot represent.  Rounding is not modelled.  Dense matrices inside one computation are indexed by `Fin`, the members of the
class are dynamic (`Mat`).
-/

namespace Limbo

open Finset Matrix

/-- How a call can fail (see above). -/
inductive SpErr
  | ub
  | inf

/-- Result of a call. -/
abbrev SpRes (α : Type) := Except SpErr α

/-- `Params::model_spgp` — spgp.hpp:64-73.  `min_m` is compared as `size_t`, so a negative value is not meaningful. -/
structure SpParams where
  jitter : ℝ
  samplesPercent : ℝ
  minM : Nat
  sig : ℝ
  predKernelSigmaSq : ℝ
  predKernelL : ℝ

/-- Template arguments of `SPGP`, Eigen's Cholesky decomposition and the optimizer of the hyper-parameters.  The optimizer is given the
objective (`none` = the evaluation is undefined), the start vector and `bounded`; it returns a vector or fails. -/
structure SpEnv where
  K : KernelImpl
  KP : KernelParams
  M : MeanImpl
  P : SpParams
  llt : Nat → (Nat → Nat → ℝ) → Nat → Nat → ℝ
  hpOpt : (List ℝ → Bool → Option (ℝ × Option (List ℝ))) → List ℝ → Bool → SpRes (List ℝ)

/-! ## Matrices -/

/-- Entries by number, `0` outside. -/
def natFn {r c : Nat} (A : Matrix (Fin r) (Fin c) ℝ) (i j : Nat) : ℝ := if h : i < r ∧ j < c then A ⟨i, h.1⟩ ⟨j, h.2⟩ else 0

/-- The dynamic matrix holding `A`. -/
def matOf {r c : Nat} (A : Matrix (Fin r) (Fin c) ℝ) : Mat := ⟨r, c, natFn A⟩

/-- The entries of a dynamic matrix of known size. -/
def Mat.fin (m : Mat) (r c : Nat) : Matrix (Fin r) (Fin c) ℝ := Matrix.of fun i j => m.e i j

/-- `A.llt().matrixL()`. -/
def lltM (llt : Nat → (Nat → Nat → ℝ) → Nat → Nat → ℝ) {m : Nat} (A : Matrix (Fin m) (Fin m) ℝ) : Matrix (Fin m) (Fin m) ℝ :=
  Matrix.of fun i j => llt m (natFn A) i j

/-- `L.triangularView<Lower>().solve(B)`. -/
noncomputable def triSolve {m n : Nat} (L : Matrix (Fin m) (Fin m) ℝ) (B : Matrix (Fin m) (Fin n) ℝ) : Matrix (Fin m) (Fin n) ℝ :=
  Matrix.of fun i j => fsub (natFn L) (fun a => natFn B a j) i

/-- `A.lu().solve(B)`: the exact solution (`A` is invertible wherever this is used). -/
noncomputable def luSolve {m n : Nat} (A : Matrix (Fin m) (Fin m) ℝ) (B : Matrix (Fin m) (Fin n) ℝ) : Matrix (Fin m) (Fin n) ℝ := A⁻¹ * B

/-! ## Likelihood -/

/-- The arguments of `_likelihood_wp` (spgp.hpp:449-450) for one output: `m` pseudo-inputs `xb`, `n` samples `X` of dimension `d`, centred
observations `Y`, parameters `b`, `c`, `sig`, the member `_del`. -/
structure LikIn where
  llt : Nat → (Nat → Nat → ℝ) → Nat → Nat → ℝ
  m : Nat
  n : Nat
  d : Nat
  xb : Matrix (Fin m) (Fin d) ℝ
  b : Fin d → ℝ
  c : ℝ
  sig : ℝ
  del : ℝ
  X : Matrix (Fin n) (Fin d) ℝ
  Y : Fin n → ℝ

namespace LikIn
variable (I : LikIn)

/-- `xb = xb.cwiseProduct(b_sqrt.replicate(_m, 1))` — spgp.hpp:455-456. -/
noncomputable def sxb : Matrix (Fin I.m) (Fin I.d) ℝ := Matrix.of fun i k => I.xb i k * √(I.b k)

/-- `x = samples.cwiseProduct(b_sqrt.replicate(n, 1))` — spgp.hpp:457. -/
noncomputable def sx : Matrix (Fin I.n) (Fin I.d) ℝ := Matrix.of fun i k => I.X i k * √(I.b k)

/-- `Q` — spgp.hpp:460-463. -/
noncomputable def Q : Matrix (Fin I.m) (Fin I.m) ℝ :=
  let P := I.sxb * I.sxbᵀ
  Matrix.of fun i j => Real.exp ((P i i + P j j - 2 * P i j) * -0.5) * I.c + if i = j then I.del else 0

/-- `K` before the division by `sqrt(ep)` — spgp.hpp:466-469. -/
noncomputable def K0 : Matrix (Fin I.m) (Fin I.n) ℝ :=
  let P := I.sxb * I.sxᵀ
  Matrix.of fun i j => Real.exp ((-2 * P i j + ∑ k, I.sx j k * I.sx j k + ∑ k, I.sxb i k * I.sxb i k) * -0.5) * I.c

/-- `L` — spgp.hpp:472. -/
noncomputable def L : Matrix (Fin I.m) (Fin I.m) ℝ := lltM I.llt I.Q

/-- `V` before the division — spgp.hpp:474. -/
noncomputable def V0 : Matrix (Fin I.m) (Fin I.n) ℝ := triSolve I.L I.K0

/-- `ep` — spgp.hpp:476. -/
noncomputable def ep (j : Fin I.n) : ℝ := 1 + (I.c - ∑ i, I.V0 i j ^ 2) / I.sig

/-- `K` — spgp.hpp:477. -/
noncomputable def K : Matrix (Fin I.m) (Fin I.n) ℝ := Matrix.of fun i j => I.K0 i j / √(I.ep j)

/-- `V` — spgp.hpp:478. -/
noncomputable def V : Matrix (Fin I.m) (Fin I.n) ℝ := Matrix.of fun i j => I.V0 i j / √(I.ep j)

/-- `y` — spgp.hpp:479. -/
noncomputable def y (j : Fin I.n) : ℝ := I.Y j / √(I.ep j)

/-- `Lm` — spgp.hpp:481. -/
noncomputable def Lm : Matrix (Fin I.m) (Fin I.m) ℝ := lltM I.llt (I.sig • (1 : Matrix (Fin I.m) (Fin I.m) ℝ) + I.V * I.Vᵀ)

/-- `invLmV` — spgp.hpp:483. -/
noncomputable def invLmV : Matrix (Fin I.m) (Fin I.n) ℝ := triSolve I.Lm I.V

/-- `bet` — spgp.hpp:484. -/
noncomputable def bet : Fin I.m → ℝ := I.invLmV *ᵥ I.y

/-- `(n - _m) / 2`: `n` is an `int`, `_m` a `size_t`, so the subtraction wraps and the division is one of integers — spgp.hpp:487. -/
def halfDiff : Nat := (((I.n : Int) - I.m) % 2 ^ 64).toNat / 2

/-- `fw(0)` — spgp.hpp:487. -/
noncomputable def fw : ℝ :=
  ∑ i, Real.log (I.Lm i i) + I.halfDiff * Real.log I.sig + (I.y ⬝ᵥ I.y - I.bet ⬝ᵥ I.bet) / (2 * I.sig) + (∑ j, Real.log (I.ep j)) / 2
    + 0.5 * I.n * Real.log (2 * Real.pi)

/-! ### Gradient -/

/-- `Lt` — spgp.hpp:497. -/
noncomputable def Lt : Matrix (Fin I.m) (Fin I.m) ℝ := I.L * I.Lm

/-- `B1` — spgp.hpp:498. -/
noncomputable def B1 : Matrix (Fin I.m) (Fin I.n) ℝ := luSolve I.Ltᵀ I.invLmV

/-- `b1` — spgp.hpp:499. -/
noncomputable def b1 : Fin I.m → ℝ := (I.Ltᵀ)⁻¹ *ᵥ I.bet

/-- `invLV` — spgp.hpp:501. -/
noncomputable def invLV : Matrix (Fin I.m) (Fin I.n) ℝ := luSolve I.Lᵀ I.V

/-- `invQ` — spgp.hpp:502-503. -/
noncomputable def invQ : Matrix (Fin I.m) (Fin I.m) ℝ := (I.L⁻¹)ᵀ * I.L⁻¹

/-- `invA` — spgp.hpp:504-505. -/
noncomputable def invA : Matrix (Fin I.m) (Fin I.m) ℝ := (I.Lt⁻¹)ᵀ * I.Lt⁻¹

/-- `mu` — spgp.hpp:508. -/
noncomputable def mu : Fin I.n → ℝ := ((I.Lmᵀ)⁻¹ *ᵥ I.bet) ᵥ* I.V

/-- `bigsum` — spgp.hpp:512. -/
noncomputable def bigsum (j : Fin I.n) : ℝ :=
  I.y j * (I.bet ᵥ* I.invLmV) j / I.sig - (∑ i, I.invLmV i j ^ 2) / 2 - (I.y j ^ 2 + I.mu j ^ 2) / (2 * I.sig) + 0.5

/-- `TT` — spgp.hpp:514. -/
noncomputable def TT : Matrix (Fin I.m) (Fin I.m) ℝ := I.invLV * Matrix.of fun j i => I.invLV i j * I.bigsum j

/-- `dnnQ` — spgp.hpp:523. -/
noncomputable def dnnQ (k : Fin I.d) : Matrix (Fin I.m) (Fin I.m) ℝ := Matrix.of fun a q => (I.sxb a k - I.sxb q k) * I.Q a q

/-- `dNnK` — spgp.hpp:525. -/
noncomputable def dNnK (k : Fin I.d) : Matrix (Fin I.m) (Fin I.n) ℝ := Matrix.of fun a q => (I.sxb a k * -1 - I.sx q k * -1) * I.K a q

/-- `epdot` — spgp.hpp:528. -/
noncomputable def epdot (k : Fin I.d) : Matrix (Fin I.m) (Fin I.n) ℝ := Matrix.of fun a q => I.dNnK k a q * I.invLV a q * (-2 / I.sig)

/-- `epPmod` — spgp.hpp:529. -/
noncomputable def epPmod (k : Fin I.d) (q : Fin I.n) : ℝ := -1 * ∑ a, I.epdot k a q

/-- `dfxb(a, k)` — spgp.hpp:532, 539, 542. -/
noncomputable def dfxb (a : Fin I.m) (k : Fin I.d) : ℝ :=
  ((I.b1 a * ((∑ q, I.dNnK k a q * (I.y q - I.mu q)) / I.sig + ∑ q, I.dnnQ k a q * I.b1 q)) * -1
      + (∑ q, (I.invQ a q - I.invA a q * I.sig) * I.dnnQ k a q) + (∑ q, I.epdot k a q * I.bigsum q)
      - (∑ q, I.dnnQ k a q * I.TT a q) * (2 / I.sig)
    + ∑ q, I.dNnK k a q * I.B1 a q) * √(I.b k)

/-- `dfb(k)` — spgp.hpp:535, 540, 544-548. -/
noncomputable def dfb (k : Fin I.d) : ℝ :=
  ((∑ q, ((I.y q - I.mu q) * (∑ a, I.b1 a * I.dNnK k a q) / I.sig + I.epPmod k q * I.bigsum q) * I.sx q k
      - ∑ q, (∑ a, I.dNnK k a q * I.B1 a q) * I.sx q k) / √(I.b k)
    + (∑ a, I.dfxb a k * I.sxb a k) / I.b k) * (√(I.b k) / 2)

/-- `epc` — spgp.hpp:553. -/
noncomputable def epc (q : Fin I.n) : ℝ := ((I.ep q)⁻¹ * I.c - ∑ i, I.V i q ^ 2 - I.del * ∑ i, I.invLV i q ^ 2) / I.sig

/-- `dfc` — spgp.hpp:557. -/
noncomputable def dfc : ℝ :=
  (I.m + I.del * (I.invQ - I.sig • I.invA).trace - I.sig * ∑ i, ∑ j, I.invA i j * I.Q j i) / 2
    - (I.mu ⬝ᵥ fun q => I.y q - I.mu q) / I.sig + ((I.b1 ᵥ* (I.Q - I.del • (1 : Matrix (Fin I.m) (Fin I.m) ℝ))) ⬝ᵥ I.b1) / 2
    + ∑ q, I.epc q * I.bigsum q

/-- `dfsig` — spgp.hpp:560. -/
noncomputable def dfsig : ℝ := ∑ q, I.bigsum q / I.ep q

/-- `dfw` — spgp.hpp:563-567: `dfxb` column by column, then `dfb`, `dfc`, `dfsig`. -/
noncomputable def dfw : List ℝ :=
  (List.finRange I.d).flatMap (fun k => (List.finRange I.m).map fun a => I.dfxb a k) ++ (List.finRange I.d).map I.dfb ++ [I.dfc, I.dfsig]

/-- The returned pair for `inverse = true` — spgp.hpp:489-494, 569-572. -/
noncomputable def result (evalGrad : Bool) : ℝ × Option (List ℝ) :=
  (-I.fw, if evalGrad then some (I.dfw.map fun x => x * -1) else none)

end LikIn

/-- `HyperParams(w, m, dim_in)` — spgp.hpp:95-102: the pseudo-inputs are read column by column (`resize` of a column-major matrix), the other
parameters are exponentials. -/
structure SpHyper (m d : Nat) where
  xb : Matrix (Fin m) (Fin d) ℝ
  b : Fin d → ℝ
  c : ℝ
  sig : ℝ

/-- Unpacking; `none` = the vector is too short (`segment` asserts). -/
noncomputable def unpack (w : List ℝ) (m d : Nat) : Option (SpHyper m d) :=
  if (m + 1) * d + 2 ≤ w.length then
    some ⟨Matrix.of fun i k => at' w (k * m + i), fun k => Real.exp (at' w (m * d + k)), Real.exp (at' w ((m + 1) * d)),
      Real.exp (at' w ((m + 1) * d + 1))⟩
  else none

/-! ## The class -/

/-- Members of `SPGP` — spgp.hpp:316-344.  `del = none`: `_del` was never set. -/
structure SpState (E : SpEnv) where
  m : Nat
  dimIn : Int
  dimOut : Int
  del : Option ℝ
  samples : Mat
  obs : Mat
  obsZm : Mat
  obsMean : Nat → ℝ
  mf : E.M.St
  kf : BaseK E.K
  pseudo : Mat
  b : List ℝ
  c : ℝ
  sig : ℝ
  Lm : Mat
  bet : Mat
  L : Mat
  optimizeInit : Bool
  optimized : Bool
  wInit : List ℝ

namespace Spgp
variable {E : SpEnv}

/-- `SPGP()` — spgp.hpp:106.  `u`: the uninitialised `_m`, `_c`, `_sig`. -/
noncomputable def new (E : SpEnv) (u : Nat × ℝ × ℝ) : SpState E :=
  ⟨u.1, -1, -1, none, .empty, .empty, .empty, fun _ => 0, E.M.new 1, BaseK.mk' E.KP 1, .empty, [], u.2.1, u.2.2, .empty, .empty, .empty,
    true, false, []⟩

/-- `SPGP(dim_in, dim_out)` — spgp.hpp:109-116. -/
noncomputable def newDims (E : SpEnv) (u : Nat) (dimIn dimOut : Nat) : SpState E :=
  ⟨u, dimIn, dimOut, none, .empty, .empty, .empty, fun _ => 0, E.M.new dimOut, BaseK.mk' E.KP dimIn, .empty,
    List.replicate dimIn (1 * E.P.predKernelL), E.P.predKernelSigmaSq, E.P.sig, .empty, .empty, .empty, true, false, []⟩

/-- `mean_observation()` — spgp.hpp:264-268. -/
def meanObservation (st : SpState E) : Nat → ℝ := if 0 < st.samples.rows * st.samples.cols then st.obsMean else fun _ => 0

/-- `_mean_function(v, *this)`, component `c`. -/
def meanAt (st : SpState E) (v : List ℝ) (c : Nat) : ℝ := E.M.op st.mf v (meanObservation st) c

/-- Row `i` of a matrix as a vector. -/
def rowL (m : Mat) (i : Nat) : List ℝ := (List.range m.cols).map fun j => m.e i j

/-- `_to_matrix` — spgp.hpp:634-641: the width is that of the first vector (`xs[0]`), rows of another size fail. -/
def toMatrix (xs : List (List ℝ)) : SpRes Mat :=
  match xs with
  | [] => .error .ub
  | x :: _ => if xs.all (fun y => decide (y.length = x.length)) then .ok ⟨xs.length, x.length, fun i j => at' (xs.getD i []) j⟩ else .error .ub

/-- `_to_vector` — spgp.hpp:646-653. -/
def toVector (m : Mat) : List (List ℝ) := (List.range m.rows).map (rowL m)

/-- `_compute_observations_zm()` — spgp.hpp:371-378: reads one sample per observation. -/
noncomputable def computeObservationsZm (st : SpState E) : SpRes (SpState E) :=
  let st := { st with obsMean := fun c => if c < st.obs.cols then (∑ i ∈ range st.obs.rows, st.obs.e i c) / st.obs.rows else 0 }
  if st.obs.rows ≤ st.samples.rows then
    .ok { st with obsZm := ⟨st.obs.rows, st.obs.cols, fun i c => st.obs.e i c - meanAt st (rowL st.samples i) c⟩ }
  else .error .ub

/-- The number of pseudo-inputs for `n` samples — spgp.hpp:383-385 (the product is converted from `double` to `size_t`). -/
noncomputable def pseudoCount (P : SpParams) (n : Nat) : Nat :=
  let m := ⌊P.samplesPercent * n / 100⌋₊
  if m < P.minM then P.minM else m

/-- `_update_m()` — spgp.hpp:380-386. -/
noncomputable def updateM (st : SpState E) : SpState E := { st with m := pseudoCount E.P st.samples.rows }

/-- `_init(samples, observations)` — spgp.hpp:346-369.  (Seeding the random generator is not modelled: shuffles are arbitrary.) -/
noncomputable def init (st : SpState E) (samples observations : Mat) : SpRes (SpState E) := do
  let st := { st with
    samples := samples
    obs := observations
    dimIn := samples.cols
    dimOut := observations.cols
    mf := E.M.new observations.cols
    kf := BaseK.mk' E.KP samples.cols }
  let st ← computeObservationsZm st
  let st := updateM st
  pure { st with del := some E.P.jitter, optimizeInit := true }

/-- `SPGP(samples, observations)` — spgp.hpp:119-123. -/
noncomputable def newData (E : SpEnv) (u : Nat × ℝ × ℝ) (samples observations : List (List ℝ)) : SpRes (SpState E) := do
  init (new E u) (← toMatrix samples) (← toMatrix observations)

/-- `_compute_kernel_matrix(p_1, p_2)` — spgp.hpp:606-622: rows are points; Eigen checks that the widths equal the size of `_b`. -/
noncomputable def kernelMatrix (st : SpState E) (p1 p2 : Mat) : SpRes (Matrix (Fin p1.rows) (Fin p2.rows) ℝ) :=
  if p1.cols = st.b.length ∧ p2.cols = st.b.length then
    let x1 := fun (i : Fin p1.rows) k => p1.e i k * √(at' st.b k)
    let x2 := fun (i : Fin p2.rows) k => p2.e i k * √(at' st.b k)
    .ok (Matrix.of fun i j => st.c * Real.exp (((-2 * ∑ k ∈ range st.b.length, x1 i k * x2 j k) + ∑ k ∈ range st.b.length, x2 j k ^ 2
      + ∑ k ∈ range st.b.length, x1 i k ^ 2) * -0.5))
  else .error .ub

/-- `_likelihood(input, eval_grad)` — spgp.hpp:442-447.  `none`: the vector is too short, `_del` was never set, or the observations do not have
exactly one column (`observations_zm.array() / ep.array().sqrt()` asserts). -/
noncomputable def likelihood (st : SpState E) (w : List ℝ) (g : Bool) : Option (ℝ × Option (List ℝ)) :=
  match unpack w st.m st.dimIn.toNat, st.del with
  | some hp, some del =>
    if st.obsZm.cols = 1 ∧ st.obsZm.rows = st.samples.rows then
      some ((LikIn.mk E.llt st.m st.samples.rows st.dimIn.toNat hp.xb hp.b hp.c hp.sig del (st.samples.fin _ _) fun i => st.obsZm.e i 0).result g)
    else none
  | _, _ => none

/-- `_samples.colwise().maxCoeff() - _samples.colwise().minCoeff()`, column `k`, of `n + 1` rows. -/
noncomputable def colRange (s : Mat) (n k : Nat) : ℝ :=
  (range (n + 1)).sup' nonempty_range_add_one (fun i => s.e i k) - (range (n + 1)).inf' nonempty_range_add_one (fun i => s.e i k)

/-- `_observations_zm.array().pow(2).mean()`. -/
noncomputable def meanSq (o : Mat) : ℝ := (∑ i ∈ range o.rows, ∑ c ∈ range o.cols, o.e i c ^ 2) / (o.rows * o.cols : Nat)

/-- The start vector — spgp.hpp:411-427.  `perm i` is entry `i` of the shuffled row numbers.  Undefined without samples (`maxCoeff` of an empty
column) or if more pseudo-inputs than samples are wanted; `-2 log(0)` and `log(0)` are infinite. -/
noncomputable def startVector (st : SpState E) (perm : Nat → Nat) : SpRes (List ℝ) :=
  let n := st.samples.rows
  let d := st.dimIn.toNat
  if n = 0 ∨ n < st.m then .error .ub
  else if (List.range d).any (fun k => decide (colRange st.samples (n - 1) k = 0)) || decide (meanSq st.obsZm = 0) then .error .inf
  else
    .ok ((List.range st.m).flatMap (fun i => (List.range d).map fun k => st.samples.e (perm i) k)
      ++ (List.range d).map (fun k => -2 * Real.log (colRange st.samples (n - 1) k / 2))
      ++ [Real.log (meanSq st.obsZm), Real.log (meanSq st.obsZm / 4)])

/-- `_optimize_hyperparams()` — spgp.hpp:407-440. -/
noncomputable def optimizeHp (perm : Nat → Nat) (st : SpState E) : SpRes (SpState E) := do
  let st ← if st.optimizeInit then do
      let st := updateM st
      let w ← startVector st perm
      pure { st with wInit := w, optimizeInit := false }
    else pure st
  let r ← E.hpOpt (likelihood st) st.wInit false
  match unpack r st.m st.dimIn.toNat with
  | none => .error .ub
  | some hp =>
    .ok { st with pseudo := matOf hp.xb, b := (List.finRange st.dimIn.toNat).map hp.b, c := hp.c, sig := hp.sig, optimized := true }

/-- The matrices `_matrixL`, `_Lm`, `_bet` from the kernel matrices `k` (pseudo-inputs) and `kmn` (pseudo-inputs and samples) and the centred
observations `z` — spgp.hpp:393-404. -/
noncomputable def factors (E : SpEnv) {m n : Nat} (k : Matrix (Fin m) (Fin m) ℝ) (kmn : Matrix (Fin m) (Fin n) ℝ) (c sig : ℝ) (z : Fin n → ℝ) :
    Mat × Mat × Mat :=
  let L : Matrix (Fin m) (Fin m) ℝ := lltM E.llt (k + E.P.jitter • (1 : Matrix (Fin m) (Fin m) ℝ))
  let V0 : Matrix (Fin m) (Fin n) ℝ := triSolve L kmn
  let ep : Fin n → ℝ := fun j => 1 + (c - ∑ i, V0 i j ^ 2) / sig
  let V : Matrix (Fin m) (Fin n) ℝ := Matrix.of fun i j => V0 i j / √(ep j)
  let y : Matrix (Fin n) (Fin 1) ℝ := Matrix.of fun j _ => z j / √(ep j)
  let Lm : Matrix (Fin m) (Fin m) ℝ := lltM E.llt (sig • (1 : Matrix (Fin m) (Fin m) ℝ) + V * Vᵀ)
  (matOf L, matOf Lm, matOf (triSolve Lm (V * y)))

/-- `_compute()` (`optimize` is always true) — spgp.hpp:388-405.  `replicate(_m, 1)` and `cwiseQuotient` check sizes. -/
noncomputable def compute' (perm : Nat → Nat) (st : SpState E) : SpRes (SpState E) := do
  let st ← optimizeHp perm st
  let k ← kernelMatrix st st.pseudo st.pseudo
  let kmn ← kernelMatrix st st.pseudo st.samples
  if st.m = st.pseudo.rows ∧ st.obsZm.rows = st.samples.rows ∧ st.obsZm.cols = 1 then
    let F := factors E k kmn st.c st.sig fun j => st.obsZm.e j 0
    .ok { st with L := F.1, Lm := F.2.1, bet := F.2.2 }
  else .error .ub

/-- `compute(samples, observations)` — spgp.hpp:133-155. -/
noncomputable def compute (perm : Nat → Nat) (st : SpState E) (samples observations : List (List ℝ)) : SpRes (SpState E) := do
  let s ← toMatrix samples
  let o ← toMatrix observations
  if s.rows = 0 ∨ o.rows = 0 ∨ s.rows ≠ o.rows then .error .ub
  else do
    let st ← init { st with optimizeInit := true } s o
    compute' perm st

/-- `add_sample(sample, observation)` — spgp.hpp:158-190.  Only the first sample sets the dimensions; `_del` is not set here. -/
noncomputable def addSample (perm : Nat → Nat) (st : SpState E) (x y : List ℝ) : SpRes (SpState E) :=
  let st? : SpRes (SpState E) :=
    if st.samples.rows = 0 then
      .ok { st with dimIn := x.length, kf := BaseK.mk' E.KP x.length, dimOut := y.length, mf := E.M.new y.length,
                    b := List.replicate x.length (1 * E.P.predKernelL), c := E.P.predKernelSigmaSq, sig := E.P.sig }
    else if (x.length : Int) = st.dimIn ∧ (y.length : Int) = st.dimOut then .ok st
    else .error .ub
  do
    let st ← st?
    let r := st.samples.rows
    let st := { st with samples := ⟨r + 1, st.dimIn.toNat, fun i j => if i = r then at' x j else st.samples.e i j⟩ }
    let st := updateM st
    let q := st.obs.rows
    let st := { st with obs := ⟨q + 1, st.dimOut.toNat, fun i j => if i = q then at' y j else st.obs.e i j⟩ }
    let st ← computeObservationsZm st
    compute' perm { st with optimizeInit := true }

/-- `optimize_hyperparams()` — spgp.hpp:126-130. -/
noncomputable def optimizeHyperparams (perm : Nat → Nat) (st : SpState E) : SpRes (SpState E) := optimizeHp perm { st with optimizeInit := true }

/-- `recompute(update_obs_mean)` — spgp.hpp:277-281; the argument is not used. -/
noncomputable def recompute (perm : Nat → Nat) (st : SpState E) : SpRes (SpState E) := compute' perm { st with optimizeInit := true }

/-- The part of the means that depends on the data and the variances, for the points with kernel matrix `k` — spgp.hpp:591-602.  `noise` is
`_optimized ? _sig : 0`. -/
noncomputable def predVals {m p q : Nat} (L Lm : Matrix (Fin m) (Fin m) ℝ) (bet : Matrix (Fin m) (Fin p) ℝ) (k : Matrix (Fin m) (Fin q) ℝ)
    (c sig noise : ℝ) : Matrix (Fin q) (Fin p) ℝ × (Fin q → ℝ) :=
  let lst := triSolve L k
  let lmst := triSolve Lm lst
  ((betᵀ * lmst)ᵀ, fun i => c - ∑ a, lst a i ^ 2 + sig * ∑ a, lmst a i ^ 2 + noise)

/-- `_predict(xt, calc_mu, calc_s2)` — spgp.hpp:576-604: the means (`rows × dim_out`) and the variances (`rows × 1`); both are always computed here
(the flags only skip work whose result is not used). -/
noncomputable def predict (st : SpState E) (xt : Mat) : SpRes (Mat × (Nat → ℝ)) :=
  if st.samples.rows = 0 then
    .ok (⟨xt.rows, st.dimOut.toNat, fun i c => meanAt st (rowL xt i) c⟩, fun i => st.kf.op (rowL xt i) (rowL xt i))
  else do
    let k ← kernelMatrix st st.pseudo xt
    if st.L.rows = st.pseudo.rows ∧ st.Lm.rows = st.pseudo.rows ∧ st.bet.rows = st.pseudo.rows ∧ (st.bet.cols : Int) = st.dimOut then
      let R := predVals (st.L.fin _ _) (st.Lm.fin _ _) (st.bet.fin _ st.bet.cols) k st.c st.sig (if st.optimized then st.sig else 0)
      .ok (⟨xt.rows, st.bet.cols, fun i c => meanAt st (rowL xt i) c + natFn R.1 i c⟩, fun i => if h : i < xt.rows then R.2 ⟨i, h⟩ else 0)
    else .error .ub

/-- A matrix with the one row `v`. -/
def rowMat (v : List ℝ) : Mat := ⟨1, v.length, fun _ j => at' v j⟩

/-- A vector as a matrix with one column. -/
def colMat (v : List ℝ) : Mat := ⟨v.length, 1, fun i _ => at' v i⟩

/-- `query(v)` — spgp.hpp:197-201: the `1 × dim_out` mean is converted to a vector, which is possible for one output only. -/
noncomputable def query (st : SpState E) (v : List ℝ) : SpRes (ℝ × ℝ) := do
  let r ← predict st (rowMat v)
  if r.1.cols = 1 then .ok (r.1.e 0 0, r.2 0) else .error .ub

/-- `mu(xt)` for points given as rows — spgp.hpp:218-221. -/
noncomputable def mu (st : SpState E) (xt : Mat) : SpRes Mat := do
  let r ← predict st xt
  pure r.1

/-- `sigma(v)` — spgp.hpp:232-235: the vector is passed *as a column*, not as a row. -/
noncomputable def sigma (st : SpState E) (v : List ℝ) : SpRes ℝ := do
  let r ← predict st (colMat v)
  if v.length = 0 then .error .ub else pure (r.2 0)

/-- `nb_samples()` — spgp.hpp:271. -/
def nbSamples (st : SpState E) : Nat := st.samples.rows

/-- `nb_pseudo_samples()` — spgp.hpp:274. -/
def nbPseudoSamples (st : SpState E) : Nat := st.pseudo.rows

/-- `samples()` — spgp.hpp:284. -/
def samplesOf (st : SpState E) : List (List ℝ) := toVector st.samples

/-- `pseudo_samples()` — spgp.hpp:287. -/
def pseudoSamplesOf (st : SpState E) : List (List ℝ) := toVector st.pseudo

/-- How an object is made; `u` are the values of the members that the constructor does not set. -/
inductive Start
  | default (u : Nat × ℝ × ℝ)
  | dims (u : Nat) (dimIn dimOut : Nat)
  | data (u : Nat × ℝ × ℝ) (samples observations : List (List ℝ))

/-- The constructors — spgp.hpp:106-123. -/
noncomputable def make (E : SpEnv) : Start → SpRes (SpState E)
  | .default u => .ok (new E u)
  | .dims u i o => .ok (newDims E u i o)
  | .data u s o => newData E u s o

/-- A call on the object that changes it, with the random shuffle it uses. -/
inductive Op
  | compute (samples observations : List (List ℝ)) (perm : Nat → Nat)
  | add (x y : List ℝ) (perm : Nat → Nat)
  | recompute (perm : Nat → Nat)
  | optimizeHyperparams (perm : Nat → Nat)

/-- Effect of one call. -/
noncomputable def step (st : SpState E) : Op → SpRes (SpState E)
  | .compute s o p => Spgp.compute p st s o
  | .add x y p => addSample p st x y
  | .recompute p => Spgp.recompute p st
  | .optimizeHyperparams p => Spgp.optimizeHyperparams p st

/-- A sequence of calls, all of which return normally. -/
noncomputable def run (st : SpState E) (ops : List Op) : SpRes (SpState E) := ops.foldlM step st

end Spgp
end Limbo
