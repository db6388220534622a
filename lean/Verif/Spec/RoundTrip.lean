import Verif.Spec.Rounding
import Verif.Spec.Convert

/-! # Converting back and forth in rounded arithmetic: the vocabulary -/

namespace TwoLayer
noncomputable section

/-- exact impulse response parameters of a two-layer model, in the units its own parameters are in -/
def Geo.toIR (C D l e h : ℝ) : IRPar :=
  { q1 := Geo.q1 C D l e h, q2 := Geo.q2 C D l e h, d1 := Geo.tau1 C D l e h, d2 := Geo.tau2 C D l e h, e := e, dt := 1 }

/-- how unequal the modes are: `d2 / C` over the smaller of the coefficients `q1` and `q2` -/
def Geo.spread (C D l e h : ℝ) : ℝ :=
  max (Geo.tau2 C D l e h / C / Geo.q1 C D l e h) (Geo.tau2 C D l e h / C / Geo.q2 C D l e h)

/-- how close the two timescales are: 1 if `d2` is much longer, large if they nearly coincide -/
def IRPar.cond (p : IRPar) : ℝ := (p.d2 + p.d1) / (p.d2 - p.d1)

/-- cancellation in the heat capacity of the lower layer: 1 if it is much larger than that of the upper one -/
def IRPar.loss (p : IRPar) : ℝ := 1 + 2 * p.C / (p.e * p.D)

end
end TwoLayer
