import Verif.Spec.Api
import Verif.Spec.Geoffroy

/-!
# What a run should compute, and how to read a run

The first part is in real numbers only and does not mention the code: the difference equations of the two
models.  The second part says how to read inputs and outputs of the API as real numbers.
-/

namespace TwoLayer

/-- Parameters of the two-layer equations. `C`, `D`: heat capacities (J/K/m²), `l`: feedback (W/m²/K),
`a`: state dependence (W/m²/K²), `e`: efficacy, `h`: heat exchange (W/m²/K), `dt`: time step (s). -/
structure TLPar where
  C : ℝ
  D : ℝ
  l : ℝ
  a : ℝ
  e : ℝ
  h : ℝ
  dt : ℝ

/-- parameters for which the equations make sense -/
structure TLPar.Ok (p : TLPar) : Prop where
  C : p.C ≠ 0
  D : p.D ≠ 0
  dt : p.dt ≠ 0

/-- all parameters other than `a` positive -/
structure TLPar.Pos (p : TLPar) : Prop where
  C : 0 < p.C
  D : 0 < p.D
  l : 0 < p.l
  e : 0 < p.e
  h : 0 < p.h
  dt : 0 < p.dt

/-- Non-negative parameters with a time step that resolves both layers: within one step neither layer loses more
heat than it holds. -/
structure TLPar.Resolved (p : TLPar) : Prop where
  C : 0 < p.C
  D : 0 < p.D
  l : 0 < p.l
  e : 0 ≤ p.e
  h : 0 ≤ p.h
  dt : 0 < p.dt
  upper : p.dt * (p.l + p.e * p.h) ≤ p.C
  lower : p.dt * p.h ≤ p.D

/-- fast timescale of the two-layer equations (s) -/
noncomputable def TLPar.tau1 (p : TLPar) : ℝ := Geo.tau1 p.C p.D p.l p.e p.h
/-- slow timescale of the two-layer equations (s) -/
noncomputable def TLPar.tau2 (p : TLPar) : ℝ := Geo.tau2 p.C p.D p.l p.e p.h

/-- `T`, `TD`, `U` (upper and lower temperature, heat uptake) are, at the points `0..n-1`, the forward-Euler
solution of `C T' = F - (l - a T) T - e h (T - TD)`, `D TD' = h (T - TD)` from rest, and `U` is the heat taken
up over the preceding step. -/
def TLEq (p : TLPar) (n : ℕ) (F T TD U : ℕ → ℝ) : Prop :=
  (0 < n → T 0 = 0 ∧ TD 0 = 0 ∧ U 0 = 0) ∧
  ∀ i, i + 1 < n →
    p.C * ((T (i + 1) - T i) / p.dt) = F i - (p.l - p.a * T i) * T i - p.e * p.h * (T i - TD i) ∧
    p.D * ((TD (i + 1) - TD i) / p.dt) = p.h * (T i - TD i) ∧
    U (i + 1) = p.C * ((T (i + 1) - T i) / p.dt) + p.D * ((TD (i + 1) - TD i) / p.dt)

/-- `S` is, at the points `0..n-1`, the forward-Euler solution of the one-layer equation
`C S' = F - (l - a S) S - k S` from rest. -/
def OneLayerEq (C l a k dt : ℝ) (n : ℕ) (F S : ℕ → ℝ) : Prop :=
  (0 < n → S 0 = 0) ∧
  ∀ i, i + 1 < n → C * ((S (i + 1) - S i) / dt) = F i - (l - a * S i) * S i - k * S i

/-- Parameters of the impulse response equations. `q1`, `q2`: K/(W/m²), `d1`, `d2`, `dt`: years, `e`: efficacy. -/
structure IRPar where
  q1 : ℝ
  q2 : ℝ
  d1 : ℝ
  d2 : ℝ
  e : ℝ
  dt : ℝ

/-- feedback parameter of the equivalent two-layer model -/
noncomputable def IRPar.l (p : IRPar) : ℝ := Geo.invL p.q1 p.q2
/-- heat exchange coefficient of the equivalent two-layer model -/
noncomputable def IRPar.h (p : IRPar) : ℝ := Geo.invH p.q1 p.q2 p.d1 p.d2 p.e
/-- ratio of lower-layer to upper-layer temperature in the fast mode of the equivalent two-layer model -/
noncomputable def IRPar.phi1 (p : IRPar) : ℝ :=
  Geo.phi1 (Geo.invC p.q1 p.q2 p.d1 p.d2) (Geo.invD p.q1 p.q2 p.d1 p.d2 p.e) p.l p.e p.h
/-- the same in the slow mode -/
noncomputable def IRPar.phi2 (p : IRPar) : ℝ :=
  Geo.phi2 (Geo.invC p.q1 p.q2 p.d1 p.d2) (Geo.invD p.q1 p.q2 p.d1 p.d2 p.e) p.l p.e p.h

/-- One box: exponential relaxation towards `q F` with timescale `d`, driver held constant within a step. -/
def BoxEq (q d dt : ℝ) (n : ℕ) (F T : ℕ → ℝ) : Prop :=
  (0 < n → T 0 = 0) ∧
  ∀ i, i + 1 < n → T (i + 1) = q * F i + (T i - q * F i) * Real.exp (-(dt / d))

/-- Energy balance of the equivalent two-layer model: `U = F - l T - (e - 1) h (T - TD)` with
`T = T1 + T2` and `TD = φ1 T1 + φ2 T2`, at the start of the step; `κ l` is the feedback actually applied. -/
def IRUptakeEq (p : IRPar) (κ : ℝ) (n : ℕ) (F T1 T2 U : ℕ → ℝ) : Prop :=
  (0 < n → U 0 = 0) ∧
  ∀ i, i + 1 < n → U (i + 1) = F i - κ * p.l * (T1 i + T2 i) -
    (p.e - 1) * p.h * ((T1 i + T2 i) - (p.phi1 * T1 i + p.phi2 * T2 i))

/-- parameters of a physical impulse response -/
structure IRPar.Ok (p : IRPar) : Prop where
  q1 : 0 < p.q1
  q2 : 0 < p.q2
  d1 : 0 < p.d1
  d2 : p.d1 < p.d2
  e : 0 < p.e

/-- two boxes with positive parameters and different timescales, in either order -/
structure IRPar.Boxes (p : IRPar) : Prop where
  q1 : 0 < p.q1
  q2 : 0 < p.q2
  d1 : 0 < p.d1
  d2 : 0 < p.d2
  ne : p.d1 ≠ p.d2
  e : 0 < p.e

/-- the three equations of an impulse response run -/
structure IREq (p : IRPar) (κ : ℝ) (n : ℕ) (F T1 T2 U : ℕ → ℝ) : Prop where
  box1 : BoxEq p.q1 p.d1 p.dt n F T1
  box2 : BoxEq p.q2 p.d2 p.dt n F T2
  uptake : IRUptakeEq p κ n F T1 T2 U

/-! ## Reading the API -/

section
variable {N : Type} [Fintype N] [DecidableEq N]

/-- `q.to(u).magnitude` is the number `x` -/
def IsNum (R : Registry N XR) (q : Qty N XR) (u : Units N) (x : ℝ) : Prop := q.toUnit R u = .ok ⟨.fin x, u⟩

/-- the values `f 0, …, f (n-1)` -/
def series (n : ℕ) (f : ℕ → ℝ) : List XR := (List.range n).map fun i => .fin (f i)

/-- `d` is a one-dimensional array Quantity with the `n` values `F 0, …, F (n-1)` when expressed in W/m² -/
def IsForcing (R : Registry N XR) (d : DArg N XR) (n : ℕ) (F : ℕ → ℝ) : Prop :=
  ∃ vals u, d = .qty ⟨1, vals⟩ u ∧ vals.length = n ∧
    ∀ i (hi : i < vals.length), IsNum R ⟨vals[i], u⟩ R.wm2 (F i)

/-- the public parameters of a two-layer object, converted to m, W/m²/K, W/m²/K², 1, W/m²/K, s; heat capacities
are those of `depth` metres of water of density 1000 kg/m³ and specific heat 4181 J/kg/K -/
structure TLM.Phys (R : Registry N XR) (m : TLM N XR) (p : TLPar) : Prop where
  du : IsNum R m.du R.m (p.C / (1000 * 4181))
  dl : IsNum R m.dl R.m (p.D / (1000 * 4181))
  lambda0 : IsNum R m.lambda0 R.wm2c p.l
  a : IsNum R m.a R.wm2cc p.a
  efficacy : IsNum R m.efficacy R.one p.e
  eta : IsNum R m.eta R.wm2c p.h
  dt : IsNum R m.core.deltaT R.s p.dt

/-- the public parameters of an impulse response object, converted to K/(W/m²), years and 1 -/
structure IRM.Phys (R : Registry N XR) (m : IRM N XR) (p : IRPar) : Prop where
  q1 : IsNum R m.q1 R.cwm2 p.q1
  q2 : IsNum R m.q2 R.cwm2 p.q2
  d1 : IsNum R m.d1 R.yr p.d1
  d2 : IsNum R m.d2 R.yr p.d2
  efficacy : IsNum R m.efficacy R.one p.e
  dt : IsNum R m.core.deltaT R.yr p.dt

/-- `set_drivers(d)`, `reset()`, `run()` succeed on `m` and report these series -/
def TLM.Produces (R : Registry N XR) (m : TLM N XR) (d : DArg N XR) (n : ℕ) (T TD U : ℕ → ℝ) : Prop :=
  ∃ m', TLM.simulate R d m = (m', .ok ()) ∧
    m'.outputs = [("Surface Temperature|Upper", "delta_degC", series n T),
      ("Surface Temperature|Lower", "delta_degC", series n TD), ("Heat Uptake", "W/m^2", series n U)]

/-- `set_drivers(d)`, `reset()`, `run()` succeed on `m` and report these series -/
def IRM.Produces (R : Registry N XR) (m : IRM N XR) (d : DArg N XR) (n : ℕ) (T1 T2 U : ℕ → ℝ) : Prop :=
  ∃ m', IRM.simulate R d m = (m', .ok ()) ∧
    m'.outputs = [("Surface Temperature|Box 1", "delta_degC", series n T1),
      ("Surface Temperature|Box 2", "delta_degC", series n T2),
      ("Surface Temperature", "delta_degC", series n fun i => T1 i + T2 i), ("Heat Uptake", "W/m^2", series n U)]
/-- the unit combination for which `efficacy ≠ 1` passes the assertion on the units of the heat uptake term -/
def IRM.UnitsOk (R : Registry N XR) (m : IRM N XR) (e : ℝ) : Prop :=
  e = 1 ∨ m.q2.unit + m.efficacy.unit = R.cwm2
end

/-- the documented defaults of `TwoLayerModel()`: depths of 50 and 1200 m of water, in J/m²/K; 3.74/3, 0 and 0.8 W/m²; one
year in seconds -/
noncomputable def TLPar.default : TLPar where
  C := 50 * (1000 * 4181)
  D := 1200 * (1000 * 4181)
  l := 3.74 / 3
  a := 0
  e := 1
  h := 0.8
  dt := 31557600

/-- the documented defaults of `ImpulseResponseModel()` -/
noncomputable def IRPar.default : IRPar where
  q1 := 0.3
  q2 := 0.4
  d1 := 9
  d2 := 400
  e := 1
  dt := 1 / 12

end TwoLayer
