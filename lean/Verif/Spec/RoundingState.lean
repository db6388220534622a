import Verif.Spec.Rounding

/-! # Rounding with state-dependent feedback: the scale of the error -/

namespace TwoLayer

/-- how many steps it takes the two layers to forget a perturbation if the feedback is at least `ν` -/
noncomputable def TLPar.memoryAt (p : TLPar) (ν : ℝ) : ℝ := (p.C + p.e * p.D) / (p.dt * ν) + p.D / (p.dt * p.h)

end TwoLayer
