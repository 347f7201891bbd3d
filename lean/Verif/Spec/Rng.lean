import Verif.Model.Rng

/-! Specification for the random generators. -/

namespace Limbo.Rng

variable {σ ρ : Type} {D : Dist σ ρ}

/-- The parameters after a sequence of calls: the last ones set. -/
def lastParam : List (Op D) → D.Param → D.Param
  | [], p => p
  | .param q :: os, _ => lastParam os q
  | .rand :: os, p => lastParam os p
  | .seed _ _ :: os, p => lastParam os p
  | .reset :: os, p => lastParam os p

/-- How often `rand()` was called since the last `reset()` (or since construction); `n` counts the calls before. -/
def drawsSinceReset : List (Op D) → Nat → Nat
  | [], n => n
  | .rand :: os, n => drawsSinceReset os (n + 1)
  | .reset :: os, _ => drawsSinceReset os 0
  | .seed _ _ :: os, n => drawsSinceReset os n
  | .param _ :: os, n => drawsSinceReset os n

/-- The numbers thread `i` got, in order. -/
def outOf (i : Nat) (t : Threads D) : List ρ := (t.out.filter fun q => q.1 == i).map (·.2)

end Limbo.Rng
