import Verif.Spec.BoGp

/-! Specification of the moments at which statistics are written. -/

namespace Limbo

variable {E : GpEnv}

/-- After the events `pre`, statistics are written while the model is `g`: the last two events were the construction of the acquisition
function of iteration `it` from `g`, and the evaluation of the point `x` chosen with it, which returned the finite `y`; the data are
`others` and the newest pair `(x, y)`; `g` predicts from `others` (and its dimensions are those of the data). -/
structure StatAfter (pre : List (Event XR (GpState E))) (g : GpState E) (it : Int) (others : List (List XR × List XR)) (x y : List XR) : Prop where
  events : ∃ tr, pre = tr ++ [.acqui g it, .call x (.ret y)] ∧ expect tr = others
  data : expect pre = others ++ [(x, y)]
  fin : AllFin y
  fits : GpFits g others
  dims : ∀ o ∈ others, g.dimIn = o.1.length ∧ g.dimOut = o.2.length

/-- Header for the first row since the last reset. -/
def headerIf (n : Nat) : List (LogLine XR) := if n = 0 then [.header] else []

/-- the first `n` values of a function, as numbers of the optimizer -/
noncomputable def vecOf (n : Nat) (m : Nat → ℝ) : List XR := (List.range n).map fun c => XR.fin (m c)

end Limbo
