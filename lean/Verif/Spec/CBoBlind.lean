import Verif.Spec.CBo

/-! Specification vocabulary for "the constrained optimizer does not use the results of its evaluations". -/

namespace Limbo

variable {α M C : Type} [Scalar α]

/-- Two optimizers with the same samples, models, counters and split observations: they differ at most in the observations
they store (and in what has been logged). -/
structure SameButResults (s s' : CBoState α M C) : Prop where
  samples : s.base.samples = s'.base.samples
  current : s.base.currentIteration = s'.base.currentIteration
  total : s.base.totalIterations = s'.base.totalIterations
  model : s.base.model = s'.base.model
  cmodel : s.cmodel = s'.cmodel
  nb : s.nb = s'.nb
  dimOut : s.dimOut = s'.dimOut
  obs : s.obs = s'.obs

/-- Starting points, the inner optimizer (for a given acquisition function) and stopping criteria do not read the stored observations themselves
(they may use the models, the samples and the counters; for random choices the state stands for the position of the generator). -/
structure ReadsNoResults (P : CBoParams α M C) : Prop where
  start : ∀ s s' d, SameButResults s s' → P.startPt s d = P.startPt s' d
  inner : ∀ s s' f x b, SameButResults s s' → P.acquiOpt s f x b = P.acquiOpt s' f x b
  stop : ∀ c ∈ P.stop, ∀ s s' afun, SameButResults s s' → c s afun = c s' afun

end Limbo
