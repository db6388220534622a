import Mathlib.Analysis.SpecialFunctions.Exp
import Mathlib.Analysis.SpecialFunctions.Pow.Real

/-!
# Numbers, exceptions and the object-state monad

`Arith α` lists the floating-point operations the package performs.  It has **no laws**: a theorem
stated for every `[Arith α]` holds in particular for IEEE-754 doubles, with rounding, overflow and NaN.

`XR` is the exact instance: real numbers plus `nan`.
-/

namespace TwoLayer

/-- The float operations used in `/repo/src/openscm_twolayermodel` (`base.py:276-298`,
`two_layer_model.py:186-277`, `impulse_response_model.py:157-244`, `utils.py:37`).
Simplification: `x ** 2` is `x * x`, `x ** 0.5` is `sqrt x`. -/
class Arith (α : Type) extends Add α, Sub α, Mul α, Div α, Neg α where
  /-- an integer literal such as `0`, `1`, `4` or `4181` -/
  ofNat : Nat → α
  /-- a decimal literal `m / 10^e` such as `0.8 = dec 8 1` -/
  dec : Nat → Nat → α
  /-- `np.nan` -/
  nan : α
  /-- `np.exp` -/
  exp : α → α
  /-- `x ** 0.5` for `x` not negative -/
  sqrt : α → α
  /-- `np.isnan` -/
  isNaN : α → Bool
  /-- `np.equal` / `==` (false on NaN) -/
  eq : α → α → Bool
  /-- `<` (false on NaN) -/
  lt : α → α → Bool
  /-- `<=` (false on NaN) -/
  le : α → α → Bool
  /-- Is the scalar a Python number (`int`, `float`) rather than a numpy one (`np.float64`)?  Between two Python
  numbers `x / 0` raises and a negative number to the power 0.5 is complex; numpy scalars give inf or NaN. -/
  isPy : α → Bool

/-- Exact numbers: a real number, or NaN; scalars are Python numbers.  Simplification: there are no infinities and no signed zeros;
numpy's `x / 0` is `nan` here (every theorem at `XR` that divides assumes or proves the divisor non-zero). -/
inductive XR where
  | nan : XR
  | fin : ℝ → XR

namespace XR
open Classical in
noncomputable instance : DecidableEq XR := fun a b => Classical.propDecidable (a = b)

/-- lift a binary real operation, NaN-propagating, numpy arithmetic, e.g. `two_layer_model.py:249-253` -/
def op (f : ℝ → ℝ → XR) : XR → XR → XR
  | fin x, fin y => f x y
  | _, _ => nan

open Classical in
/-- Exact arithmetic with NaN propagation (IEEE rules without rounding). -/
noncomputable instance : Arith XR where
  add := op fun x y => fin (x + y)
  sub := op fun x y => fin (x - y)
  mul := op fun x y => fin (x * y)
  div := op fun x y => if y = 0 then nan else fin (x / y)
  neg | fin x => fin (-x) | nan => nan
  ofNat n := fin n
  dec m e := fin ((m : ℝ) / 10 ^ e)
  nan := nan
  exp | fin x => fin (Real.exp x) | nan => nan
  sqrt | fin x => if x < 0 then nan else fin (Real.sqrt x) | nan => nan
  isNaN | fin _ => false | nan => true
  eq | fin x, fin y => decide (x = y) | _, _ => false
  lt | fin x, fin y => decide (x < y) | _, _ => false
  le | fin x, fin y => decide (x ≤ y) | _, _ => false
  isPy _ := true

@[simp] theorem fin_add (x y : ℝ) : fin x + fin y = fin (x + y) := rfl
@[simp] theorem fin_sub (x y : ℝ) : fin x - fin y = fin (x - y) := rfl
@[simp] theorem fin_mul (x y : ℝ) : fin x * fin y = fin (x * y) := rfl
@[simp] theorem fin_neg (x : ℝ) : -fin x = fin (-x) := rfl
theorem fin_div_def (x y : ℝ) : fin x / fin y = if y = 0 then nan else fin (x / y) := by
  show (if y = 0 then nan else fin (x / y)) = _
  congr
@[simp] theorem fin_div {x y : ℝ} (h : y ≠ 0) : fin x / fin y = fin (x / y) := by
  rw [fin_div_def, if_neg h]
@[simp] theorem ofNat_eq (n : ℕ) : (Arith.ofNat n : XR) = fin n := rfl
@[simp] theorem dec_eq (m e : ℕ) : (Arith.dec m e : XR) = fin ((m : ℝ) / 10 ^ e) := rfl
@[simp] theorem nan_eq : (Arith.nan : XR) = nan := rfl
@[simp] theorem exp_fin (x : ℝ) : (Arith.exp (fin x) : XR) = fin (Real.exp x) := rfl
@[simp] theorem sqrt_fin {x : ℝ} (h : 0 ≤ x) : (Arith.sqrt (fin x) : XR) = fin (Real.sqrt x) := by
  show (if x < 0 then nan else fin (Real.sqrt x)) = _
  rw [if_neg (not_lt.mpr h)]
@[simp] theorem isNaN_fin (x : ℝ) : Arith.isNaN (fin x) = false := rfl
@[simp] theorem isNaN_nan : Arith.isNaN XR.nan = true := rfl
@[simp] theorem eq_fin (x y : ℝ) : Arith.eq (fin x) (fin y) = decide (x = y) := by
  show (decide (x = y)) = _
  congr
@[simp] theorem lt_fin (x y : ℝ) : Arith.lt (fin x) (fin y) = decide (x < y) := by
  show (decide (x < y)) = _
  congr
@[simp] theorem le_fin (x y : ℝ) : Arith.le (fin x) (fin y) = decide (x ≤ y) := by
  show (decide (x ≤ y)) = _
  congr
@[simp] theorem isPy_eq (x : XR) : Arith.isPy x = true := rfl
@[simp] theorem fin_inj {x y : ℝ} : fin x = fin y ↔ x = y := by
  constructor
  · intro h; cases h; rfl
  · rintro rfl; rfl
end XR

/-- The exceptions the package (or numpy/pint/scmdata on its behalf) raises. -/
inductive Err where
  /-- `TypeError("{name} must be a pint.Quantity")`, `base.py:32`, and the two of `utils.py:32,35` -/
  | typeError (name : String)
  /-- `UnitError("Wrong units for `{name}`")`, `base.py:37`, `errors.py:6` -/
  | unitError (name : String)
  /-- `pint.errors.DimensionalityError` escaping from pint arithmetic -/
  | dimensionality
  /-- `AssertionError`, `base.py:131`, `impulse_response_model.py:240` -/
  | assertion (msg : String)
  /-- `ModelStateError`, `errors.py:12`, raised at `two_layer_model.py:188`, `impulse_response_model.py:159` -/
  | modelState
  /-- numpy `IndexError` -/
  | index
  /-- `AttributeError`: `_erf_mag` does not exist before drivers are set -/
  | attribute
  /-- Python `ZeroDivisionError` -/
  | zeroDivision
  /-- a negative Python float to the power 0.5 is a complex number; the model stops here -/
  | complex
  /-- `ValueError` of this package -/
  | value (msg : String)
  /-- `NotImplementedError`, `base.py:171` -/
  | notImplemented
  /-- pint `UndefinedUnitError` -/
  | undefinedUnit
  /-- scmdata `NonUniqueMetadataError` -/
  | nonUniqueMeta
  /-- scmdata refuses a frame without time columns (a driver series that is entirely missing) -/
  | noData
  /-- `KeyError` -/
  | key
deriving DecidableEq, Repr

/-- A Python method on an object of type `σ`: it leaves an object behind *and* returns or raises.
The object left behind by a raising call keeps the attribute writes made before the exception. -/
def Py (σ β : Type) := σ → σ × Except Err β

namespace Py
variable {σ β γ : Type}
/-- run a method on an object, e.g. `base.py:61` -/
def run (x : Py σ β) (s : σ) : σ × Except Err β := x s
/-- statements one after the other; an exception ends the method and leaves the object as it is then (e.g. `base.py:94-98`) -/
instance : Monad (Py σ) where
  pure a := fun s => (s, .ok a)
  bind x f := fun s => match x s with
    | (s', .ok a) => f a s'
    | (s', .error e) => (s', .error e)
/-- read the object, e.g. `two_layer_model.py:217` -/
def get : Py σ σ := fun s => (s, .ok s)
/-- write attributes, e.g. `two_layer_model.py:204` -/
def modify (f : σ → σ) : Py σ Unit := fun s => (f s, .ok ())
/-- `raise`, e.g. `two_layer_model.py:188` -/
def throw (e : Err) : Py σ β := fun s => (s, .error e)
/-- evaluate an expression that may raise, e.g. `two_layer_model.py:215` -/
def lift (x : Except Err β) : Py σ β := fun s => (s, x)

@[simp] theorem pure_apply (a : β) (s : σ) : (pure a : Py σ β) s = (s, .ok a) := rfl
@[simp] theorem bind_apply (x : Py σ β) (f : β → Py σ γ) (s : σ) :
    (x >>= f) s = match x s with
      | (s', .ok a) => f a s'
      | (s', .error e) => (s', .error e) := rfl
@[simp] theorem get_apply (s : σ) : (get : Py σ σ) s = (s, .ok s) := rfl
@[simp] theorem modify_apply (f : σ → σ) (s : σ) : (modify f) s = (f s, .ok ()) := rfl
@[simp] theorem throw_apply (e : Err) (s : σ) : (throw e : Py σ β) s = (s, .error e) := rfl
@[simp] theorem lift_apply (x : Except Err β) (s : σ) : (lift x : Py σ β) s = (s, x) := rfl
end Py

end TwoLayer
