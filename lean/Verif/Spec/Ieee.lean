import Verif.Spec.Rounding
import Mathlib.Data.EReal.Basic

/-!
# IEEE-754 binary64 with infinities, NaN and signed zeros

`F64 py` has the values of binary64 arithmetic: NaN (one), two infinities, two zeros and real numbers.  Every operation is the
exact one rounded to nearest, ties to even (`near64` of `Spec/Rounding.lean`); a rounded result of size 2¹⁰²⁴ or more is an
infinity.  `exp` and square root are correctly rounded.  `py` says whether scalars are Python numbers (then scalar division by
zero raises, see `pyDiv`).  Simplification: Python's `x ** 2` raises `OverflowError` where numpy gives infinity; here it is
infinity.
-/

namespace TwoLayer

/-- binary64 values; `num 0` is `+0.0` -/
inductive F64 (py : Bool) where
  | nan
  | inf (neg : Bool)
  | negZero
  | num (x : ℝ)

namespace F64
variable {py : Bool}

noncomputable section
open Classical

instance : DecidableEq (F64 py) := fun a b => Classical.propDecidable (a = b)

/-- the number that a value stands for, if it is a number -/
def value : F64 py → Option ℝ
  | nan => none
  | inf _ => none
  | negZero => some 0
  | num x => some x

/-- `np.isfinite` -/
def Finite (x : F64 py) : Prop := ∃ v, x.value = some v

/-- the sign bit (of NaN: not set) -/
def sign : F64 py → Bool
  | nan => false
  | inf s => s
  | negZero => true
  | num x => decide (x < 0)

/-- a zero with the given sign bit -/
def zero (s : Bool) : F64 py := if s then negZero else num 0

/-- The exact result `x`, rounded; `s` is the sign bit of an exact zero. -/
def round (s : Bool) (x : ℝ) : F64 py :=
  if x = 0 then zero s
  else if near64 x = 0 then zero (decide (x < 0))
  else if 2 ^ 1024 ≤ |near64 x| then inf (decide (x < 0))
  else num (near64 x)

/-- `-x` -/
def neg : F64 py → F64 py
  | nan => nan
  | inf s => inf (!s)
  | negZero => num 0
  | num x => if x = 0 then negZero else num (-x)

/-- `x + y` -/
def add : F64 py → F64 py → F64 py
  | nan, _ => nan
  | _, nan => nan
  | inf s, inf t => if s = t then inf s else nan
  | inf s, _ => inf s
  | _, inf t => inf t
  | negZero, negZero => negZero
  | negZero, num y => round false (0 + y)
  | num x, negZero => round false (x + 0)
  | num x, num y => round false (x + y)

/-- `x * y` -/
def mul (x y : F64 py) : F64 py :=
  match x, y with
  | nan, _ => nan
  | _, nan => nan
  | inf s, inf t => inf (s != t)
  | inf s, y => if y.value = some 0 then nan else inf (s != y.sign)
  | x, inf t => if x.value = some 0 then nan else inf (x.sign != t)
  | x, y => round (x.sign != y.sign) (x.value.getD 0 * y.value.getD 0)

/-- `x / y` of numpy -/
def div (x y : F64 py) : F64 py :=
  match x, y with
  | nan, _ => nan
  | _, nan => nan
  | inf _, inf _ => nan
  | inf s, y => inf (s != y.sign)
  | x, inf t => zero (x.sign != t)
  | x, y =>
    if y.value = some 0 then (if x.value = some 0 then nan else inf (x.sign != y.sign))
    else round (x.sign != y.sign) (x.value.getD 0 / y.value.getD 0)

/-- the place in the order of the extended real numbers; NaN has none -/
def place : F64 py → Option EReal
  | nan => none
  | inf s => some (if s then ⊥ else ⊤)
  | negZero => some 0
  | num x => some x

/-- a comparison, false on NaN -/
def compare (r : EReal → EReal → Prop) (x y : F64 py) : Bool :=
  match x.place, y.place with
  | some a, some b => decide (r a b)
  | _, _ => false

/-- binary64 arithmetic -/
instance : Arith (F64 py) where
  add := add
  sub x y := add x (neg y)
  mul := mul
  div := div
  neg := neg
  ofNat n := round false n
  dec m e := round false ((m : ℝ) / 10 ^ e)
  nan := nan
  exp
    | nan => nan
    | inf s => if s then num 0 else inf false
    | negZero => num 1
    | num x => round false (Real.exp x)
  sqrt
    | nan => nan
    | inf s => if s then nan else inf false
    | negZero => negZero
    | num x => if x < 0 then nan else round false (Real.sqrt x)
  isNaN
    | nan => true
    | _ => false
  eq := compare (· = ·)
  lt := compare (· < ·)
  le := compare (· ≤ ·)
  isPy _ := py
end
end F64

/-! ## Reading the API -/

section
variable {N : Type} [Fintype N] [DecidableEq N] {py : Bool}

/-- `q.to(u).magnitude` is finite -/
def FiniteIn (R : Registry N (F64 py)) (q : Qty N (F64 py)) (u : Units N) : Prop :=
  ∃ x, q.toUnit R u = .ok ⟨x, u⟩ ∧ x.Finite

/-- the list has a finite value at index `i` -/
def FiniteAt (l : List (F64 py)) (i : ℕ) : Prop := ∃ x, l[i]? = some x ∧ x.Finite

/-- the drivers `d` have a value at index `i`, and it is finite when converted to W/m² -/
def FiniteForcing (R : Registry N (F64 py)) (d : DArg N (F64 py)) (i : ℕ) : Prop :=
  ∃ vals u x, d = .qty ⟨1, vals⟩ u ∧ vals[i]? = some x ∧ FiniteIn R ⟨x, u⟩ R.wm2

/-- `q.to(u).magnitude` is the number `x` -/
def IsNum64 (R : Registry N (F64 py)) (q : Qty N (F64 py)) (u : Units N) (x : ℝ) : Prop :=
  ∃ y, q.toUnit R u = .ok ⟨y, u⟩ ∧ y.value = some x

/-- the drivers `d` have a value at index `i`, which is the number `v` when converted to W/m² -/
def ForcingNum (R : Registry N (F64 py)) (d : DArg N (F64 py)) (i : ℕ) (v : ℝ) : Prop :=
  ∃ vals u x, d = .qty ⟨1, vals⟩ u ∧ vals[i]? = some x ∧ IsNum64 R ⟨x, u⟩ R.wm2 v

/-- the list has the number `v` at index `i` -/
def NumAt (l : List (F64 py)) (i : ℕ) (v : ℝ) : Prop := ∃ x, l[i]? = some x ∧ x.value = some v

/-- the values of `l` are the numbers `f 0, …, f (n-1)` -/
def IsSeries64 (l : List (F64 py)) (n : ℕ) (f : ℕ → ℝ) : Prop :=
  l.length = n ∧ ∀ i (hi : i < l.length), (l[i]).value = some (f i)

/-- `d` is a one-dimensional array Quantity with `n` values which are the numbers `F 0, …, F (n-1)` when converted to W/m² -/
def IsForcing64 (R : Registry N (F64 py)) (d : DArg N (F64 py)) (n : ℕ) (F : ℕ → ℝ) : Prop :=
  ∃ vals u, d = .qty ⟨1, vals⟩ u ∧ vals.length = n ∧
    ∀ i (hi : i < vals.length), IsNum64 R ⟨vals[i], u⟩ R.wm2 (F i) ∧ Arith.isNaN vals[i] = false

/-- the numbers that the public parameters (and the two heat capacities) of a two-layer object are in its model units -/
structure TLM.Phys64 (R : Registry N (F64 py)) (m : TLM N (F64 py)) (p : TLPar) : Prop where
  C : IsNum64 R (m.heatCapacityUpper R) R.jm2c p.C
  D : IsNum64 R (m.heatCapacityLower R) R.jm2c p.D
  lambda0 : IsNum64 R m.lambda0 R.wm2c p.l
  a : IsNum64 R m.a R.wm2cc p.a
  efficacy : IsNum64 R m.efficacy R.one p.e
  eta : IsNum64 R m.eta R.wm2c p.h
  dt : IsNum64 R m.core.deltaT R.s p.dt

/-- `set_drivers(d)`, `reset()`, `run()` succeed on `m` and report series of these numbers, none of them infinite or NaN -/
def TLM.Produces64 (R : Registry N (F64 py)) (m : TLM N (F64 py)) (d : DArg N (F64 py)) (n : ℕ) (T TD U : ℕ → ℝ) : Prop :=
  ∃ m' Tu Tl u, TLM.simulate R d m = (m', .ok ()) ∧
    m'.outputs = [("Surface Temperature|Upper", "delta_degC", Tu), ("Surface Temperature|Lower", "delta_degC", Tl),
      ("Heat Uptake", "W/m^2", u)] ∧
    IsSeries64 Tu n T ∧ IsSeries64 Tl n TD ∧ IsSeries64 u n U

/-- the numbers that the public parameters of an impulse response object are in its model units -/
structure IRM.Phys64 (R : Registry N (F64 py)) (m : IRM N (F64 py)) (p : IRPar) : Prop where
  q1 : IsNum64 R m.q1 R.cwm2 p.q1
  q2 : IsNum64 R m.q2 R.cwm2 p.q2
  d1 : IsNum64 R m.d1 R.yr p.d1
  d2 : IsNum64 R m.d2 R.yr p.d2
  efficacy : IsNum64 R m.efficacy R.one p.e
  dt : IsNum64 R m.core.deltaT R.yr p.dt

/-- every parameter was given in the units of the model, and the efficacy is one -/
structure IRM.PlainUnits64 (R : Registry N (F64 py)) (m : IRM N (F64 py)) : Prop where
  q1 : m.q1.unit = R.cwm2
  q2 : m.q2.unit = R.cwm2
  d1 : m.d1.unit = R.yr
  d2 : m.d2.unit = R.yr
  efficacy : m.efficacy = ⟨F64.num 1, R.one⟩

/-- `set_drivers(d)`, `reset()`, `run()` succeed on `m` and report series of these numbers, none of them infinite or NaN -/
def IRM.Produces64 (R : Registry N (F64 py)) (m : IRM N (F64 py)) (d : DArg N (F64 py)) (n : ℕ) (T1 T2 T U : ℕ → ℝ) : Prop :=
  ∃ m' t1 t2 t u, IRM.simulate R d m = (m', .ok ()) ∧
    m'.outputs = [("Surface Temperature|Box 1", "delta_degC", t1), ("Surface Temperature|Box 2", "delta_degC", t2),
      ("Surface Temperature", "delta_degC", t), ("Heat Uptake", "W/m^2", u)] ∧
    IsSeries64 t1 n T1 ∧ IsSeries64 t2 n T2 ∧ IsSeries64 t n T ∧ IsSeries64 u n U
end
end TwoLayer
