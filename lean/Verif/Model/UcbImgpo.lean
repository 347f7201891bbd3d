import Verif.Model.Acqui

/-! `acqui::experimental::UCB_IMGPO` (`experimental/acqui/ucb_imgpo.hpp`). -/

namespace Limbo.Acqui

/-- `gp_varsigma` — ucb_imgpo.hpp:77-79: `sqrt(2.0 * log(pow(M_PI, 2.0) * pow(_M, 2.0) / (12.0 * nu)))`; `M_PI` is taken to be π. -/
noncomputable def imgpoVarsigma (nu : ℝ) (M : Nat) : XR :=
  XR.sqrt (XR.fin 2 * xlog (XR.fin (Real.pi ^ 2 * (M : ℝ) ^ 2) / (XR.fin 12 * XR.fin nu)))

/-- `UCB_IMGPO::operator()` of an object built with `M` — ucb_imgpo.hpp:70-81. -/
noncomputable def ucbImgpo (m : AModel) (afun : List ℝ → ℝ) (nu : ℝ) (M : Nat) (v : List ℝ) : Option XR :=
  (m.query v).map fun r => XR.fin (afun r.1) + (imgpoVarsigma nu M + XR.fin 0.2) * XR.sqrt (XR.fin r.2)

end Limbo.Acqui
