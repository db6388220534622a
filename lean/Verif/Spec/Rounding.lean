import Verif.Spec.Equations
import Mathlib.Data.Int.Log

/-!
# Floating-point arithmetic

`FR r`: real numbers and NaN in which every operation is the exact one followed by the rounding `r`.  `Rounding.Accurate`
says what is assumed of the rounding: relative error at most `u` for results (square root and `exp` of a non-positive number included) between the smallest normal number `μ` and
the overflow threshold `Ω`, absolute error at most `u μ` below; nothing is assumed above `Ω`.  `double` is IEEE-754 binary64
rounding to nearest (`u = 2⁻⁵³`, `μ = 2⁻¹⁰²²`).  The second part says how to read the API at `FR r`.
-/

namespace TwoLayer

/-- how results are rounded: of `+ - * /` and literals, of `exp`, of `sqrt` -/
structure Rounding where
  fl : ℝ → ℝ
  exp : ℝ → ℝ
  sqrt : ℝ → ℝ

/-- rounded numbers: a real number, or NaN -/
def FR (_ : Rounding) : Type := XR

namespace FR
variable {r : Rounding}
/-- a number -/
def fin (x : ℝ) : FR r := XR.fin x

open Classical in
noncomputable instance : DecidableEq (FR r) := fun a b => Classical.propDecidable (a = b)

open Classical in
/-- The operations of the code, each rounded. -/
noncomputable instance : Arith (FR r) where
  add := XR.op fun x y => XR.fin (r.fl (x + y))
  sub := XR.op fun x y => XR.fin (r.fl (x - y))
  mul := XR.op fun x y => XR.fin (r.fl (x * y))
  div := XR.op fun x y => if y = 0 then XR.nan else XR.fin (r.fl (x / y))
  neg | XR.fin x => XR.fin (-x) | XR.nan => XR.nan
  ofNat n := XR.fin (r.fl n)
  dec m e := XR.fin (r.fl ((m : ℝ) / 10 ^ e))
  nan := XR.nan
  exp | XR.fin x => XR.fin (r.exp x) | XR.nan => XR.nan
  sqrt | XR.fin x => if x < 0 then XR.nan else XR.fin (r.sqrt x) | XR.nan => XR.nan
  isNaN | XR.fin _ => false | XR.nan => true
  eq | XR.fin x, XR.fin y => decide (x = y) | _, _ => false
  lt | XR.fin x, XR.fin y => decide (x < y) | _, _ => false
  le | XR.fin x, XR.fin y => decide (x ≤ y) | _, _ => false
  isPy _ := true

@[simp] theorem fin_add (x y : ℝ) : (fin x + fin y : FR r) = fin (r.fl (x + y)) := rfl
@[simp] theorem fin_sub (x y : ℝ) : (fin x - fin y : FR r) = fin (r.fl (x - y)) := rfl
@[simp] theorem fin_mul (x y : ℝ) : (fin x * fin y : FR r) = fin (r.fl (x * y)) := rfl
@[simp] theorem fin_neg (x : ℝ) : (-fin x : FR r) = fin (-x) := rfl
theorem fin_div {x y : ℝ} (h : y ≠ 0) : (fin x / fin y : FR r) = fin (r.fl (x / y)) := by
  show (if y = 0 then XR.nan else XR.fin (r.fl (x / y))) = _
  rw [if_neg h]; rfl
@[simp] theorem ofNat_eq (n : ℕ) : (Arith.ofNat n : FR r) = fin (r.fl n) := rfl
@[simp] theorem dec_eq (m e : ℕ) : (Arith.dec m e : FR r) = fin (r.fl ((m : ℝ) / 10 ^ e)) := rfl
@[simp] theorem exp_fin (x : ℝ) : (Arith.exp (fin x) : FR r) = fin (r.exp x) := rfl
@[simp] theorem isNaN_fin (x : ℝ) : Arith.isNaN (fin x : FR r) = false := rfl
@[simp] theorem isPy_eq (x : FR r) : Arith.isPy x = true := rfl
theorem eq_fin (x y : ℝ) : Arith.eq (fin x : FR r) (fin y) = decide (x = y) := by
  show (decide (x = y)) = _
  congr
end FR

/-- the accuracy of a rounding: unit roundoff `u`, smallest normal number `μ`, overflow threshold `Ω` -/
structure Rounding.Accurate (r : Rounding) (u μ Ω : ℝ) : Prop where
  zero : r.fl 0 = 0
  fl : ∀ x, |x| ≤ Ω → |r.fl x - x| ≤ u * max |x| μ
  exp : ∀ x ≤ 0, |r.exp x - Real.exp x| ≤ u * max (Real.exp x) μ
  sqrt : ∀ x, 0 ≤ x → |r.sqrt x - √x| ≤ u * max (√x) μ

noncomputable section
/-- the spacing of binary64 numbers around `x`: 53 significant bits, exponent at least `-1022` -/
def ulp64 (x : ℝ) : ℝ := (2 : ℝ) ^ (max (Int.log 2 |x|) (-1022) - 52)

/-- the nearest integer, the even one if there are two -/
def roundEven (x : ℝ) : ℤ :=
  if Int.fract x = 1 / 2 then (if Even ⌊x⌋ then ⌊x⌋ else ⌊x⌋ + 1) else round x

/-- the nearest binary64 number, ties to even -/
def near64 (x : ℝ) : ℝ := roundEven (x / ulp64 x) * ulp64 x

/-- the binary64 numbers: integers of at most 53 bits times powers of two, the smallest being `2⁻¹⁰⁷⁴`.  (The largest power
is not limited.) -/
def IsDouble (y : ℝ) : Prop := ∃ k e : ℤ, |k| < 2 ^ 53 ∧ -1074 ≤ e ∧ y = k * (2 : ℝ) ^ e

/-- IEEE-754 binary64, round to nearest, ties to even, `exp` and `sqrt` correctly rounded.  There is no largest number. -/
def double : Rounding where
  fl x := near64 x
  exp x := near64 (Real.exp x)
  sqrt x := near64 (Real.sqrt x)
end

/-! ## Reading the API -/

section
variable {N : Type} [Fintype N] [DecidableEq N] {r : Rounding}

/-- `q.to(u).magnitude` is the number `x` -/
def IsFNum (R : Registry N (FR r)) (q : Qty N (FR r)) (u : Units N) (x : ℝ) : Prop :=
  q.toUnit R u = .ok ⟨FR.fin x, u⟩

/-- the values `f 0, …, f (n-1)` -/
def fseries (n : ℕ) (f : ℕ → ℝ) : List (FR r) := (List.range n).map fun i => FR.fin (f i)

/-- `d` is a one-dimensional array Quantity with `n` values, none of them NaN, which are `F 0, …, F (n-1)` when converted
to W/m² -/
def IsFForcing (R : Registry N (FR r)) (d : DArg N (FR r)) (n : ℕ) (F : ℕ → ℝ) : Prop :=
  ∃ vals u, d = .qty ⟨1, vals⟩ u ∧ vals.length = n ∧
    ∀ i (hi : i < vals.length), IsFNum R ⟨vals[i], u⟩ R.wm2 (F i) ∧ Arith.isNaN vals[i] = false

/-- the numbers that the public parameters (and the two heat capacities) of a two-layer object are in its model units -/
structure TLM.FPhys (R : Registry N (FR r)) (m : TLM N (FR r)) (p : TLPar) : Prop where
  C : IsFNum R (m.heatCapacityUpper R) R.jm2c p.C
  D : IsFNum R (m.heatCapacityLower R) R.jm2c p.D
  lambda0 : IsFNum R m.lambda0 R.wm2c p.l
  a : IsFNum R m.a R.wm2cc p.a
  efficacy : IsFNum R m.efficacy R.one p.e
  eta : IsFNum R m.eta R.wm2c p.h
  dt : IsFNum R m.core.deltaT R.s p.dt

/-- `set_drivers(d)`, `reset()`, `run()` succeed on `m` and report these series -/
def TLM.FProduces (R : Registry N (FR r)) (m : TLM N (FR r)) (d : DArg N (FR r)) (n : ℕ) (T TD U : ℕ → ℝ) : Prop :=
  ∃ m', TLM.simulate R d m = (m', .ok ()) ∧
    m'.outputs = [("Surface Temperature|Upper", "delta_degC", fseries n T),
      ("Surface Temperature|Lower", "delta_degC", fseries n TD), ("Heat Uptake", "W/m^2", fseries n U)]

/-- The quantities a two-layer step computes with are of these sizes when temperatures are of size `K` and forcings of
size `l K`; all of them are in the normal range. -/
def TLPar.InRange (p : TLPar) (K μ Ω : ℝ) : Prop :=
  ∀ x ∈ [p.l, p.l * K, p.e * p.h, p.e * p.h * K, K, p.l * K / p.C, p.dt * (p.l * K) / p.C, p.h * K, p.h * K / p.D,
    p.dt * (p.h * K) / p.D, p.C * K, p.C * K / p.dt, p.D * K, p.D * K / p.dt, (p.l + p.e * p.h) * K / p.C],
    μ ≤ x ∧ 32 * x ≤ Ω

/-- how many steps it takes the two layers to forget a perturbation -/
noncomputable def TLPar.memory (p : TLPar) : ℝ := (p.C + p.e * p.D) / (p.dt * p.l) + p.D / (p.dt * p.h)

/-- the numbers that the public parameters of an impulse response object are in its model units -/
structure IRM.FPhys (R : Registry N (FR r)) (m : IRM N (FR r)) (p : IRPar) : Prop where
  q1 : IsFNum R m.q1 R.cwm2 p.q1
  q2 : IsFNum R m.q2 R.cwm2 p.q2
  d1 : IsFNum R m.d1 R.yr p.d1
  d2 : IsFNum R m.d2 R.yr p.d2
  efficacy : IsFNum R m.efficacy R.one p.e
  dt : IsFNum R m.core.deltaT R.yr p.dt

/-- `set_drivers(d)`, `reset()`, `run()` succeed on `m` and report these series; the last one is the heat uptake -/
def IRM.FProduces (R : Registry N (FR r)) (m : IRM N (FR r)) (d : DArg N (FR r)) (n : ℕ) (T1 T2 T : ℕ → ℝ)
    (us : List (FR r)) : Prop :=
  ∃ m', IRM.simulate R d m = (m', .ok ()) ∧
    m'.outputs = [("Surface Temperature|Box 1", "delta_degC", fseries n T1),
      ("Surface Temperature|Box 2", "delta_degC", fseries n T2), ("Surface Temperature", "delta_degC", fseries n T),
      ("Heat Uptake", "W/m^2", us)]

/-- Forcings of size `M`, the box temperatures they cause and the steps per timescale are in the normal range. -/
def IRPar.InRange (p : IRPar) (M μ Ω : ℝ) : Prop :=
  μ ≤ 1 ∧ 64 ≤ Ω ∧ ∀ x ∈ [p.q1 * M, p.q2 * M, (p.q1 + p.q2) * M, p.dt / p.d1, p.dt / p.d2, M], μ ≤ x ∧ 64 * x ≤ Ω

/-- The quantities computed in a conversion to two-layer parameters are in the normal range, with some margin. -/
def IRPar.ConvInRange (p : IRPar) (μ Ω : ℝ) : Prop :=
  10 ^ 8 ≤ Ω ∧ ∀ x ∈ [p.q1 + p.q2, 1 / (p.q1 + p.q2), p.q1 * p.d2, p.q2 * p.d1, p.q1 / (p.q1 + p.q2), p.q2 / (p.q1 + p.q2),
    p.d1 * (p.q2 / (p.q1 + p.q2)), p.d2 * (p.q1 / (p.q1 + p.q2))], 64 * μ ≤ x ∧ 128 * x ≤ Ω

/-- heat capacity of the upper layer of the equivalent two-layer model -/
noncomputable def IRPar.C (p : IRPar) : ℝ := Geo.invC p.q1 p.q2 p.d1 p.d2
/-- heat capacity of its lower layer -/
noncomputable def IRPar.D (p : IRPar) : ℝ := Geo.invD p.q1 p.q2 p.d1 p.d2 p.e

/-- The intermediate results of `get_two_layer_parameters` are in the normal range, with a factor 2 of margin. -/
def IRPar.ConvNormal (p : IRPar) (μ Ω : ℝ) : Prop :=
  ∀ x ∈ [1, 1000, 4181, 1000 * 4181, p.q1 + p.q2, p.l, p.q1 * p.d2, p.q2 * p.d1, p.q1 * p.d2 + p.q2 * p.d1, p.d1 * p.d2,
      p.C, p.l * p.q1, p.l * p.q2, p.d1 * (p.l * p.q1), p.d2 * (p.l * p.q2), p.d1 * (p.l * p.q1) + p.d2 * (p.l * p.q2),
      p.C + p.e * p.D, p.d1 * (p.l * p.q2), p.d2 * (p.l * p.q1), p.d1 * (p.l * p.q2) + p.d2 * (p.l * p.q1),
      2 * p.C + p.e * p.D, 2 * p.C / p.e + p.D, p.h * (1 + 2 * p.C / (p.e * p.D)), p.C / (1000 * 4181),
      (2 * p.C / p.e + p.D) / (1000 * 4181)], μ ≤ x ∧ 2 * x ≤ Ω

/-- every parameter is a number in the units of the model -/
structure IRM.Plain (R : Registry N (FR r)) (m : IRM N (FR r)) (p : IRPar) : Prop where
  q1 : m.q1 = ⟨FR.fin p.q1, R.cwm2⟩
  q2 : m.q2 = ⟨FR.fin p.q2, R.cwm2⟩
  d1 : m.d1 = ⟨FR.fin p.d1, R.yr⟩
  d2 : m.d2 = ⟨FR.fin p.d2, R.yr⟩
  efficacy : m.efficacy = ⟨FR.fin p.e, R.one⟩

/-- Sizes of the intermediate results of `get_impulse_response_parameters` (for differences: of the sum of the terms), for
depths `du`, `dl`, feedback parameter `l`, efficacy `e` and heat exchange coefficient `h`. -/
noncomputable def Geo.sizes (du dl l e h : ℝ) : List ℝ :=
  let C := du * 4181 * 1000
  let D := dl * 4181 * 1000
  let b := Geo.b C D l e h
  let g := b + 2 * b ^ 2 / √(Geo.delta C D l e h)
  [4181, 1000, 4, 2, du * 4181, dl * 4181, C, D, C * D, e * h, l + e * h, (l + e * h) / C, h / D, b, b ^ 2, 2 * b ^ 2, 4 * l, 4 * l * h,
    4 * l * h / (C * D), 2 * b ^ 2 / √(Geo.delta C D l e h), g, 2 * l, 2 * l * h, C * D / (2 * l * h), C * D / (2 * l * h) * g,
    2 * e, 2 * e * h, C / (2 * e * h), C / (2 * e * h) * g, 2 * (C / (2 * e * h) * g), C * (2 * (C / (2 * e * h) * g))]

/-- Sizes of the last intermediate results of `get_impulse_response_parameters`, those of the coefficients `q1` and `q2`. -/
noncomputable def Geo.qSizes (C D l e h : ℝ) : List ℝ :=
  [Geo.tau2 C D l e h * (Geo.phi2 C D l e h - Geo.phi1 C D l e h), C * (Geo.phi2 C D l e h - Geo.phi1 C D l e h),
    Geo.tau2 C D l e h / C]

/-- how close the two timescales `d1 < d2` are: 1 if `d2` is much longer, large if they nearly coincide -/
noncomputable def Geo.cond (C D l e h : ℝ) : ℝ :=
  (Geo.tau2 C D l e h + Geo.tau1 C D l e h) / (Geo.tau2 C D l e h - Geo.tau1 C D l e h)

/-- The size of the part of the heat uptake that an efficacy other than 1 adds, under forcings of size `M`:
`(e - 1) h (T - TD)` with `T` of size `M / l` and `TD` of size `(φ2 - φ1) T`. -/
noncomputable def IRPar.extra (p : IRPar) (M : ℝ) : ℝ := |p.e - 1| * (p.h / p.l) * (1 + (p.phi2 - p.phi1)) * M

/-- Sizes of the intermediate results of that part, under forcings of size `M`. -/
noncomputable def IRPar.extraSizes (p : IRPar) (M : ℝ) : List ℝ :=
  [1 + (p.phi2 - p.phi1), (1 + (p.phi2 - p.phi1)) * (p.q1 * M), (1 + (p.phi2 - p.phi1)) * (p.q2 * M),
    (1 + (p.phi2 - p.phi1)) * ((p.q1 + p.q2) * M), |p.e - 1|, p.h * |p.e - 1|, p.extra M]

/-- every parameter is a number in the units of the model, and there is no state dependence -/
structure TLM.Plain (R : Registry N (FR r)) (m : TLM N (FR r)) (du dl l e h : ℝ) : Prop where
  du : m.du = ⟨FR.fin du, R.m⟩
  dl : m.dl = ⟨FR.fin dl, R.m⟩
  lambda0 : m.lambda0 = ⟨FR.fin l, R.wm2c⟩
  a : m.a = ⟨FR.fin 0, R.wm2cc⟩
  efficacy : m.efficacy = ⟨FR.fin e, R.one⟩
  eta : m.eta = ⟨FR.fin h, R.wm2c⟩

/-- every parameter was given in the units of the model, and the efficacy is one -/
structure IRM.PlainUnits (R : Registry N (FR r)) (m : IRM N (FR r)) : Prop where
  q1 : m.q1.unit = R.cwm2
  q2 : m.q2.unit = R.cwm2
  d1 : m.d1.unit = R.yr
  d2 : m.d2.unit = R.yr
  efficacy : m.efficacy = ⟨FR.fin 1, R.one⟩
end

end TwoLayer
