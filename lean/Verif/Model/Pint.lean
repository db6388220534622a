import Verif.Model.Num

/-!
# The part of pint the package relies on

pint itself is outside `/repo`.  A unit is pint's `UnitsContainer`: exponents of named units.
`compat` and `conv` are the registry's dimensionality check and magnitude conversion; they are
parameters here (fields of `Registry`), with no laws.  `Registry.Lawful` records the laws that exact
(`XR`) theorems use.  Offset units such as `degC` are not modelled.
-/

namespace TwoLayer

/-- pint `UnitsContainer`: the exponent of every named unit of the registry. -/
abbrev Units (N : Type) := N → ℚ

/-- The unit registry (`openscm_units.unit_registry`, imported as `ur` in `base.py:11`,
`constants.py:4`, `two_layer_model.py:5`, `impulse_response_model.py:8`, `utils.py:5`), restricted to
what the package uses.  The named fields are the units occurring in its unit strings. -/
structure Registry (N α : Type) where
  watt : N
  meter : N
  /-- `delta_degC` -/
  ddegC : N
  second : N
  /-- `yr` -/
  year : N
  month : N
  joule : N
  kilogram : N
  /-- same dimensionality -/
  compat : Units N → Units N → Bool
  /-- `Quantity(x, u).to(v).magnitude` for `u ≠ v` of the same dimensionality -/
  conv : Units N → Units N → α → α
  /-- the root (base) units of a unit, used by pint to compare quantities in different units -/
  root : Units N → Units N
  /-- `ur(s)` for a pure unit string; `none` is `UndefinedUnitError` -/
  parse : String → Option (Units N)
  /-- `str(units)` -/
  str : Units N → String

/-- The container `{n: 1}`. (`ur("yr")`, `base.py:158`) -/
def u1 {N : Type} [DecidableEq N] (n : N) : Units N := Pi.single n 1

/-- A scalar `pint.Quantity`. -/
@[ext] structure Qty (N α : Type) where
  mag : α
  unit : Units N

/-- An argument passed where a scalar Quantity is expected: something that is not a
`pint.Quantity`, or a scalar Quantity.  (Array-valued parameters are not modelled.) -/
inductive Arg (N α : Type) where
  | bare
  | qty (q : Qty N α)

section
variable {N α : Type} [Fintype N] [DecidableEq N] [Arith α]

/-- Scalar division: between Python numbers it raises on a zero divisor; if one operand is a `np.float64` scalar it
gives inf or NaN (with a warning, not modelled). -/
def pyDiv (x y : α) : Except Err α :=
  if (Arith.eq y (Arith.ofNat 0) && (Arith.isPy x && Arith.isPy y)) then .error .zeroDivision else .ok (x / y)

namespace Qty

/-- `q.to(u).magnitude` for a unit known to be compatible: pint returns the magnitude itself if the units are equal. -/
def magIn (R : Registry N α) (q : Qty N α) (u : Units N) : α :=
  if q.unit = u then q.mag else R.conv q.unit u q.mag

/-- `q.to(u)`; `DimensionalityError` if incompatible. (`base.py:98, 112`) -/
def toUnit (R : Registry N α) (q : Qty N α) (u : Units N) : Except Err (Qty N α) :=
  if q.unit = u ∨ R.compat q.unit u = true then .ok ⟨q.magIn R u, u⟩ else .error .dimensionality

/-- `p * q`, `base.py:279-288` -/
def mul (p q : Qty N α) : Qty N α := ⟨p.mag * q.mag, p.unit + q.unit⟩

/-- `p / q`, `base.py:282-288` -/
def div (p q : Qty N α) : Except Err (Qty N α) := do
  let m ← pyDiv p.mag q.mag
  pure ⟨m, p.unit - q.unit⟩

/-- `x * q` for a plain number on the left, e.g. `4 * lambda0`, `base.py:286, 288, 292` -/
def nmul (x : α) (q : Qty N α) : Qty N α := ⟨x * q.mag, q.unit⟩

/-- `q * x` for a plain number on the right, e.g. `eta * (efficacy - 1)`, `impulse_response_model.py:234-235` -/
def muln (q : Qty N α) (x : α) : Qty N α := ⟨q.mag * x, q.unit⟩

/-- `1 / q` for a plain number on the left, `impulse_response_model.py:301` -/
def ndiv (x : α) (q : Qty N α) : Except Err (Qty N α) := do
  let m ← pyDiv x q.mag
  pure ⟨m, -q.unit⟩

/-- `-q`, `base.py:298`, `two_layer_model.py:345`, `utils.py:37` -/
def neg (q : Qty N α) : Qty N α := ⟨-q.mag, q.unit⟩

/-- `p + q`: the result is in `p`'s units, `base.py:282-294` -/
def add (R : Registry N α) (p q : Qty N α) : Except Err (Qty N α) :=
  if q.unit = p.unit ∨ R.compat q.unit p.unit = true then
    .ok ⟨p.mag + q.magIn R p.unit, p.unit⟩
  else .error .dimensionality

/-- `p - q`: the result is in `p`'s units, `base.py:285-296` -/
def sub (R : Registry N α) (p q : Qty N α) : Except Err (Qty N α) :=
  if q.unit = p.unit ∨ R.compat q.unit p.unit = true then
    .ok ⟨p.mag - q.magIn R p.unit, p.unit⟩
  else .error .dimensionality

/-- `x - q` for a plain number: only dimensionless quantities, result dimensionless, `impulse_response_model.py:236` -/
def nsub (R : Registry N α) (x : α) (q : Qty N α) : Except Err (Qty N α) :=
  if q.unit = 0 ∨ R.compat q.unit 0 = true then .ok ⟨x - q.magIn R 0, 0⟩
  else .error .dimensionality

/-- `q ** 2`, `base.py:286` -/
def sq (q : Qty N α) : Qty N α := ⟨q.mag * q.mag, q.unit + q.unit⟩

/-- `q ** 0.5`; a negative Python number would give a complex number, a negative `np.float64` gives NaN -/
def sqrt (q : Qty N α) : Except Err (Qty N α) :=
  if (Arith.lt q.mag (Arith.ofNat 0) && Arith.isPy q.mag) then .error .complex
  else .ok ⟨Arith.sqrt q.mag, (1 / 2 : ℚ) • q.unit⟩

/-- `p >= q` for quantities of the same dimensionality (pint compares magnitudes directly for equal
units, otherwise in root units) -/
def ge (R : Registry N α) (p q : Qty N α) : Except Err Bool :=
  if p.unit = q.unit then .ok (Arith.le q.mag p.mag)
  else if R.compat p.unit q.unit = true then
    .ok (Arith.le (q.magIn R (R.root q.unit)) (p.magIn R (R.root p.unit)))
  else .error .dimensionality

end Qty

namespace Registry
variable (R : Registry N α)
/-- `"W/m^2"`: `base.py:84`, `two_layer_model.py:36,40`, `impulse_response_model.py:38,42` -/
def wm2 : Units N := u1 R.watt - (2 : ℚ) • u1 R.meter
/-- `"m"`: `two_layer_model.py:26,29` -/
def m : Units N := u1 R.meter
/-- `"s"`: `base.py:83`, `two_layer_model.py:34` -/
def s : Units N := u1 R.second
/-- `"yr"`: `impulse_response_model.py:31,32,36`, `base.py:158` -/
def yr : Units N := u1 R.year
/-- `"month"`: `base.py:169` -/
def mon : Units N := u1 R.month
/-- `"delta_degC"`: `two_layer_model.py:38,39`, `impulse_response_model.py:40,41` -/
def degC : Units N := u1 R.ddegC
/-- `"J/delta_degC/m^2"`: `two_layer_model.py:27,28` -/
def jm2c : Units N := u1 R.joule - u1 R.ddegC - (2 : ℚ) • u1 R.meter
/-- `"W/m^2/delta_degC"`: `two_layer_model.py:30,33` -/
def wm2c : Units N := R.wm2 - u1 R.ddegC
/-- `"W/m^2/delta_degC^2"`: `two_layer_model.py:31` -/
def wm2cc : Units N := R.wm2 - (2 : ℚ) • u1 R.ddegC
/-- `"dimensionless"`: `two_layer_model.py:32`, `impulse_response_model.py:35` -/
def one (_R : Registry N α) : Units N := 0
/-- `"delta_degC/(W/m^2)"`: `impulse_response_model.py:33,34` -/
def cwm2 : Units N := u1 R.ddegC - R.wm2
/-- `DENSITY_WATER = 1000 * ur("kg/m^3")`, `constants.py:6` -/
def densityWater : Qty N α := ⟨Arith.ofNat 1000, u1 R.kilogram - (3 : ℚ) • u1 R.meter⟩
/-- `HEAT_CAPACITY_WATER = 4181 * ur("J/delta_degC/kg")`, `constants.py:9` -/
def heatCapacityWater : Qty N α := ⟨Arith.ofNat 4181, u1 R.joule - u1 R.ddegC - u1 R.kilogram⟩
end Registry

end

/-! ## What is assumed of the registry -/

section
variable {N : Type} [Fintype N] [DecidableEq N]

/-- dimension vector of a unit container, from the dimensions of the named units, pint's dimensionality, used in `base.py:96, 110` (specification of a registry) -/
def dimOf {D : Type} (dim : N → D → ℚ) (u : Units N) : D → ℚ := fun d => ∑ n, u n * dim n d

/-- size of one such unit in coherent base units, pint's conversion factors, used in `base.py:98, 112` (specification of a registry) -/
noncomputable def scaleOf (scale : N → ℝ) (u : Units N) : ℝ := ∏ n, (scale n) ^ ((u n : ℚ) : ℝ)

/-- What is assumed of pint's dimensional analysis, for any arithmetic: named units have dimensions,
containers add them up, `compat` compares them, `J = W s`, and years and months are times. -/
structure Registry.Dimensional {α : Type} (R : Registry N α) where
  Dim : Type
  dim : N → Dim → ℚ
  compat_iff : ∀ u v, R.compat u v = true ↔ dimOf dim u = dimOf dim v
  dim_joule : dim R.joule = dim R.watt + dim R.second
  dim_year : dim R.year = dim R.second
  dim_month : dim R.month = dim R.second

/-- What is assumed of pint / openscm-units when arithmetic is exact: units also have a size, containers
multiply sizes, conversion multiplies by the ratio of sizes, and the named units are related as in the SI
with `yr = 365.25 d` and `month = yr / 12`. -/
structure Registry.Lawful (R : Registry N XR) extends Registry.Dimensional R where
  scale : N → ℝ
  scale_pos : ∀ n, 0 < scale n
  conv_fin : ∀ u v x, R.compat u v = true → R.conv u v (.fin x) = .fin (x * scaleOf scale u / scaleOf scale v)
  conv_nan : ∀ u v, R.compat u v = true → R.conv u v .nan = .nan
  root_dim : ∀ u, dimOf dim (R.root u) = dimOf dim u
  root_eq : ∀ u v, dimOf dim u = dimOf dim v → R.root u = R.root v
  scale_joule : scale R.joule = scale R.watt * scale R.second
  scale_year : scale R.year = 31557600 * scale R.second
  scale_month : scale R.month = scale R.year / 12
end

end TwoLayer
