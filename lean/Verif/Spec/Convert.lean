import Verif.Spec.Equations
import Verif.Spec.Ode

/-!
# Equivalent parameters of the two models

First in real numbers, then how to read the dictionaries returned by the two conversion methods.
Two-layer parameters are in SI (time in seconds), impulse response parameters have time in years of 365.25 days.
-/

namespace TwoLayer

/-- seconds in a year of 365.25 days -/
def secPerYr : ℝ := 31557600

noncomputable section
/-- impulse response parameters of a two-layer system with `a = 0` -/
def TLPar.toIR (p : TLPar) : IRPar where
  q1 := Geo.q1 p.C p.D p.l p.e p.h
  q2 := Geo.q2 p.C p.D p.l p.e p.h
  d1 := p.tau1 / secPerYr
  d2 := p.tau2 / secPerYr
  e := p.e
  dt := p.dt / secPerYr

/-- two-layer parameters of an impulse response -/
def IRPar.toTL (p : IRPar) : TLPar where
  C := Geo.invC p.q1 p.q2 (p.d1 * secPerYr) (p.d2 * secPerYr)
  D := Geo.invD p.q1 p.q2 (p.d1 * secPerYr) (p.d2 * secPerYr) p.e
  l := Geo.invL p.q1 p.q2
  a := 0
  e := p.e
  h := Geo.invH p.q1 p.q2 (p.d1 * secPerYr) (p.d2 * secPerYr) p.e
  dt := p.dt * secPerYr
end

/-- The two-layer equations `C T' = F - l T - e h (T - TD)`, `D TD' = h (T - TD)` from rest over `n` steps of length
`dt`, with `F = F k` during step `k`: `T`, `TD` continuous, and differentiable inside each step. -/
structure TwoLayerSol (p : TLPar) (n : ℕ) (F : ℕ → ℝ) (T TD : ℝ → ℝ) : Prop where
  rest : T 0 = 0 ∧ TD 0 = 0
  contT : ContinuousOn T (Set.Icc 0 (n * p.dt))
  contTD : ContinuousOn TD (Set.Icc 0 (n * p.dt))
  ode : ∀ k < n, ∀ t ∈ Set.Ioo (k * p.dt) ((k + 1) * p.dt), TwoLayerODE p.C p.D p.l p.e p.h (F k) T TD t

section
variable {N : Type} [Fintype N] [DecidableEq N]

/-- the dictionary of `get_impulse_response_parameters`, converted to K/(W/m²), years and 1 (`dt` is not in it) -/
structure TLM.IRParams.Phys (R : Registry N XR) (r : TLM.IRParams N XR) (p : IRPar) : Prop where
  q1 : IsNum R r.q1 R.cwm2 p.q1
  q2 : IsNum R r.q2 R.cwm2 p.q2
  d1 : IsNum R r.d1 R.yr p.d1
  d2 : IsNum R r.d2 R.yr p.d2
  efficacy : IsNum R r.efficacy R.one p.e

/-- the dictionary of `get_two_layer_parameters`, converted to m (of water), W/m²/K and 1 (`a`, `dt` are not in it) -/
structure IRM.TLParams.Phys (R : Registry N XR) (r : IRM.TLParams N XR) (p : TLPar) : Prop where
  du : IsNum R r.du R.m (p.C / (1000 * 4181))
  dl : IsNum R r.dl R.m (p.D / (1000 * 4181))
  lambda0 : IsNum R r.lambda0 R.wm2c p.l
  efficacy : IsNum R r.efficacy R.one p.e
  eta : IsNum R r.eta R.wm2c p.h

/-- `ImpulseResponseModel(**r, delta_t=dt)` -/
def TLM.IRParams.args {α : Type} (r : TLM.IRParams N α) (dt : Arg N α) : IRM.Args N α :=
  ⟨.qty r.q1, .qty r.q2, .qty r.d1, .qty r.d2, .qty r.efficacy, dt⟩

/-- `TwoLayerModel(**r, a=a, delta_t=dt)` -/
def IRM.TLParams.args {α : Type} (r : IRM.TLParams N α) (a dt : Arg N α) : TLM.Args N α :=
  ⟨.qty r.du, .qty r.dl, .qty r.lambda0, a, .qty r.efficacy, .qty r.eta, dt⟩
end

end TwoLayer
