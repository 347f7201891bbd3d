import Mathlib.MeasureTheory.Integral.IntervalIntegral.Basic
import Mathlib.Analysis.SpecialFunctions.Gaussian.GaussianIntegral
import Mathlib.Order.WithBot

/-!
The expected hypervolume improvement of two objectives, `ehvi2d` in `ehvi/ehvi_calculations.cc`, over exact real numbers.

`INFINITY` occurs only as an upper cell boundary and is `⊤`; the standard deviations are positive (otherwise the C++ divides by zero).
Every access to the population is checked: `none` is undefined behaviour.
-/

namespace Limbo.Ehvi

/-- The constants of `ehvi_consts.h:10-11`. -/
structure Consts where
  sqrtTwo : ℝ
  sqrtTwopiNeg : ℝ

/-- The values written in the source — ehvi_consts.h:10-11. -/
noncomputable def Consts.source : Consts := ⟨1.41421356237, 0.3989422804⟩

/-- The values meant: `sqrt(2)` and `1/sqrt(2 pi)`. -/
noncomputable def Consts.exact : Consts := ⟨√2, 1 / √(2 * Real.pi)⟩

/-- `erf(x)` of `<math.h>`. -/
noncomputable def erf (x : ℝ) : ℝ := 2 / √Real.pi * ∫ t in (0 : ℝ)..x, Real.exp (-t ^ 2)

/-- `gausspdf(x)` — helper.cc:17. -/
noncomputable def gausspdf (c : Consts) (x : ℝ) : ℝ := c.sqrtTwopiNeg * Real.exp (-(x * x) / 2)

/-- `gausscdf(x)` — helper.cc:20. -/
noncomputable def gausscdf (c : Consts) (x : ℝ) : ℝ := 0.5 * (1 + erf (x / c.sqrtTwo))

/-- `gausspdf((b - mu) / s)`; `0` at infinity. -/
noncomputable def pdfAt (c : Consts) (mu s : ℝ) : WithTop ℝ → ℝ
  | ⊤ => 0
  | (b : ℝ) => gausspdf c ((b - mu) / s)

/-- `gausscdf((b - mu) / s)`; `1` at infinity. -/
noncomputable def cdfAt (c : Consts) (mu s : ℝ) : WithTop ℝ → ℝ
  | ⊤ => 1
  | (b : ℝ) => gausscdf c ((b - mu) / s)

/-- `exipsi(fmax, cellcorner, mu, s)` — helper.cc:23-26. -/
noncomputable def exipsi (c : Consts) (fmax : ℝ) (corner : WithTop ℝ) (mu s : ℝ) : ℝ := s * pdfAt c mu s corner + (fmax - mu) * cdfAt c mu s corner

/-- `P[i]->f` of a population of two objectives; `none` if there is no such element. -/
def elem (P : List (ℝ × ℝ)) (i : Int) : Option (ℝ × ℝ) := if 0 ≤ i then P[i.toNat]? else none

/-- The boundaries of a cell: `fmax`, `cl1`, `cl2`, `cu1`, `cu2` — ehvi_calculations.cc:32-51. -/
structure Cell where
  fmax : ℝ × ℝ
  cl : ℝ × ℝ
  cu1 : WithTop ℝ
  cu2 : WithTop ℝ

/-- Cell `(i, j)` — ehvi_calculations.cc:34-51. -/
noncomputable def cell (P : List (ℝ × ℝ)) (r : ℝ × ℝ) (k i j : Int) : Option Cell := do
  let (fmax1, cu1) ← (if j = k then some (r.2, (⊤ : WithTop ℝ)) else (elem P j).map fun p => (p.2, (p.1 : WithTop ℝ)))
  let (fmax0, cu2) ← (if i = k then some (r.1, (⊤ : WithTop ℝ)) else (elem P (k - i - 1)).map fun p => (p.1, (p.2 : WithTop ℝ)))
  let cl1 ← (if j = 0 then some r.1 else (elem P (j - 1)).map Prod.fst)
  let cl2 ← (if i = 0 then some r.2 else (elem P (k - i)).map Prod.snd)
  some ⟨(fmax0, fmax1), (cl1, cl2), cu1, cu2⟩

/-- The contribution of a cell — ehvi_calculations.cc:68-72. -/
noncomputable def cellSum (c : Consts) (C : Cell) (mu s : ℝ × ℝ) (sminus : ℝ) : ℝ :=
  let psi1 := exipsi c C.fmax.1 C.cl.1 mu.1 s.1 - exipsi c C.fmax.1 C.cu1 mu.1 s.1
  let psi2 := exipsi c C.fmax.2 C.cl.2 mu.2 s.2 - exipsi c C.fmax.2 C.cu2 mu.2 s.2
  let gausscdf1 := cdfAt c mu.1 s.1 C.cu1 - cdfAt c mu.1 s.1 C.cl.1
  let gausscdf2 := cdfAt c mu.2 s.2 C.cu2 - cdfAt c mu.2 s.2 C.cl.2
  psi1 * psi2 - sminus * gausscdf1 * gausscdf2

open Classical in
/-- The loop over `j` — ehvi_calculations.cc:31-75: `rest` iterations to go.  State: `Sminus`, `Shorizontal`, `answer`. -/
noncomputable def loopJ (c : Consts) (P : List (ℝ × ℝ)) (r mu s : ℝ × ℝ) (k i sstart : Int) : (rest : Nat) → (j : Int) → (sminus : ℝ) →
    (shorizontal : Int) → (answer : ℝ) → Option ℝ
  | 0, _, _, _, answer => some answer
  | rest + 1, j, sminus, sh, answer => do
    let C ← cell P r k i j
    let sminus ← (if sh > sstart then (elem P sh).map fun p => sminus + (p.1 - C.fmax.1) * (p.2 - C.fmax.2) else some sminus)
    let sum := cellSum c C mu s sminus
    loopJ c P r mu s k i sstart rest (j + 1) sminus (sh + 1) (if 0 < sum then answer + sum else answer)

/-- The loop over `i` — ehvi_calculations.cc:28-77. -/
noncomputable def loopI (c : Consts) (P : List (ℝ × ℝ)) (r mu s : ℝ × ℝ) (k : Int) : (rest : Nat) → (i sstart : Int) → (answer : ℝ) → Option ℝ
  | 0, _, _, answer => some answer
  | rest + 1, i, sstart, answer => do
    let answer ← loopJ c P r mu s k i sstart (i + 1).toNat (k - i) 0 sstart answer
    loopI c P r mu s k rest (i + 1) (sstart - 1) answer

/-- `ehvi2d(P, r, mu, s)` — ehvi_calculations.cc:16-79 (without `NAIVE_DOMPOINTS`).  `sort` is `std::sort` by the first objective; the loop over `j`
runs from `k - i` to `k`, i.e. `i + 1` times. -/
noncomputable def ehvi2d (sort : List (ℝ × ℝ) → List (ℝ × ℝ)) (c : Consts) (P : List (ℝ × ℝ)) (r mu s : ℝ × ℝ) : Option ℝ :=
  let Q := sort P
  loopI c Q r mu s Q.length (Q.length + 1) 0 (Q.length - 1) 0

/-- `acqui::Ehvi::operator()` with `FirstElem` — experimental/acqui/ehvi.hpp:70-79.  `mu0`, `mu1` are the predicted means of the two models and
`sigma0`, `sigma1` the results of `sigma`, which for `model::GP` is the predicted variance (gp.hpp:182-191, C27).  The third components are
constant 0 and not read by `ehvi2d`. -/
noncomputable def acquiEhvi (sort : List (ℝ × ℝ) → List (ℝ × ℝ)) (c : Consts) (pop : List (ℝ × ℝ)) (ref : ℝ × ℝ)
    (mu0 mu1 sigma0 sigma1 : List ℝ → ℝ) (v : List ℝ) : Option ℝ := ehvi2d sort c pop ref (mu0 v, mu1 v) (sigma0 v, sigma1 v)

end Limbo.Ehvi
