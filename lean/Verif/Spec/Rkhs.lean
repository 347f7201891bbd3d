import Verif.Spec.Gp

/-! Functions of bounded norm for a kernel: prior mean plus a finite combination of kernel functions. -/

namespace Limbo

/-- `f` is, on points of dimension `d`, the prior mean `m` plus a combination `Σ cᵢ k(zᵢ, ·)` of kernel functions whose squared norm
`Σ cᵢ cⱼ k(zᵢ, zⱼ)` is at most `B²`.  (For a kernel with non-singular Gram matrices every function agrees with such a one on any given
finite set of points, for `B` large enough.) -/
def InKernelBall (k : List ℝ → List ℝ → ℝ) (m : List ℝ → ℝ) (d : Nat) (B : ℝ) (f : List ℝ → ℝ) : Prop :=
  ∃ (n : Nat) (z : Fin n → List ℝ) (c : Fin n → ℝ), (∀ i, (z i).length = d) ∧ (∀ v, v.length = d → f v = m v + ∑ i, c i * k (z i) v) ∧
    ∑ i, ∑ j, c i * k (z i) (z j) * c j ≤ B ^ 2

end Limbo
