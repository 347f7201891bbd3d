import Verif.Model.Kernel

/-! The mean functions limbo ships. -/

namespace Limbo

/-- The mean functions limbo ships, including `FunctionARD` wrapped around any of them. -/
inductive StdMean : MeanImpl → Prop
  | null : StdMean nullMean
  | const (c : ℝ) : StdMean (constMean c)
  | data : StdMean dataMean
  | ard {M : MeanImpl} : StdMean M → StdMean (functionArd M)

/-- States a mean functor can be in after construction for `d` outputs and any number of parameter changes. -/
inductive MReach (M : MeanImpl) (d : Nat) : M.St → Prop
  | new : MReach M d (M.new d)
  | set {s : M.St} (p : List ℝ) : MReach M d s → M.hSize s ≤ p.length → MReach M d (M.setH s p)

end Limbo
