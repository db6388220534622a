import Verif.Model.Pint

/-!
# `base.py`: unit check, time step, drivers, Geoffroy helper parameters
-/

namespace TwoLayer
variable {N α : Type} [Fintype N] [DecidableEq N] [Arith α]

/-- `Model._assert_is_pint_quantity_with_units`, `base.py:29-37`; returns the Quantity it accepted. -/
def checkQty (R : Registry N α) (v : Arg N α) (name : String) (u : Units N) : Except Err (Qty N α) :=
  match v with
  | .bare => .error (.typeError name)
  | .qty q =>
    match q.toUnit R u with
    | .ok _ => .ok q
    | .error _ => .error (.unitError name)

/-- A numpy array: number of dimensions and (flattened) values. -/
structure Arr (α : Type) where
  ndim : Nat
  vals : List α

/-- An argument of `set_drivers`: a plain array, or an array Quantity. (`base.py:114-133`) -/
inductive DArg (N α : Type) where
  | bare (a : Arr α)
  | qty (a : Arr α) (u : Units N)

/-- The `_erf` attribute: `np.zeros(1) * np.nan` until drivers are set (`two_layer_model.py:74`,
`impulse_response_model.py:81`), then the array Quantity given by the user. -/
inductive Erf (N α : Type) where
  | unset
  | set (vals : List α) (u : Units N)

/-- `len(self.erf)`: number of iterations of `for _ in self.erf` (`two_layer_model.py:199`). -/
def Erf.length : Erf N α → Nat
  | .unset => 1
  | .set vals _ => vals.length

/-- `np.isnan(self.erf).any()`, `two_layer_model.py:187`, `impulse_response_model.py:158`. -/
def Erf.anyNaN : Erf N α → Bool
  | .unset => true
  | .set vals _ => vals.any Arith.isNaN

/-- The attributes of `TwoLayerVariant` (`base.py:78-133`): time step and drivers, each with the cached
magnitude in model units.  `erfMag` is `none` while the attribute `_erf_mag` does not exist. -/
structure Core (N α : Type) where
  deltaT : Qty N α
  deltaTMag : α
  erf : Erf N α
  erfMag : Option (List α)

/-- setter of `delta_t`, `base.py:94-98`; `u` is the class attribute `_delta_t_unit`. -/
def Core.setDeltaT (R : Registry N α) (u : Units N) (v : Arg N α) : Py (Core N α) Unit := do
  let q ← Py.lift (checkQty R v "delta_t" u)
  Py.modify fun c => { c with deltaT := q, deltaTMag := q.magIn R u }

/-- magnitudes of an array Quantity in another (compatible) unit, `val.to(...).magnitude`, `base.py:112` -/
def magsIn (R : Registry N α) (vals : List α) (u v : Units N) : List α :=
  vals.map fun x => (Qty.mk x u).magIn R v

/-- setter of `erf`, `base.py:108-112`, for one-dimensional arrays; the model unit is `W/m^2` (`base.py:84`). -/
def Core.setErf (R : Registry N α) (v : DArg N α) : Py (Core N α) Unit :=
  match v with
  | .bare _ => Py.throw (.typeError "erf")
  | .qty a u =>
    if u = R.wm2 ∨ R.compat u R.wm2 = true then
      Py.modify fun c => { c with erf := .set a.vals u, erfMag := some (magsIn R a.vals u R.wm2) }
    else Py.throw (.unitError "erf")

/-- `TwoLayerVariant.set_drivers`, `base.py:114-133`. -/
def Core.setDrivers (R : Registry N α) (v : DArg N α) : Py (Core N α) Unit :=
  let nd := match v with
    | .bare a => a.ndim
    | .qty a _ => a.ndim
  if nd ≠ 1 then Py.throw (.assertion "erf must be one-dimensional")
  else Core.setErf R v

/-- The dictionary returned by `_calculate_geoffroy_helper_parameters`, `base.py:300-312`. -/
structure GH (N α : Type) where
  C : Qty N α
  CD : Qty N α
  b : Qty N α
  bStar : Qty N α
  delta : Qty N α
  tau1 : Qty N α
  tau2 : Qty N α
  phi1 : Qty N α
  phi2 : Qty N α
  a1 : Qty N α
  a2 : Qty N α

/-- `_calculate_geoffroy_helper_parameters`, `base.py:276-314`, statement by statement. -/
def geoffroy (R : Registry N α) (du dl lambda0 efficacy eta : Qty N α) : Except Err (GH N α) := do
  -- base.py:279-280
  let C := (du.mul R.heatCapacityWater).mul R.densityWater
  let CD := (dl.mul R.heatCapacityWater).mul R.densityWater
  -- base.py:282-286
  let num ← lambda0.add R (efficacy.mul eta)
  let bPt1 ← num.div C
  let bPt2 ← eta.div CD
  let b ← bPt1.add R bPt2
  let bStar ← bPt1.sub R bPt2
  let disc ← ((Qty.nmul (Arith.ofNat 4) lambda0).mul eta).div (C.mul CD)
  let delta ← b.sq.sub R disc
  -- base.py:288-290
  let taucoeff ← (C.mul CD).div ((Qty.nmul (Arith.ofNat 2) lambda0).mul eta)
  let rootDelta ← delta.sqrt
  let bMinus ← b.sub R rootDelta
  let bPlus ← b.add R rootDelta
  let tau1 := taucoeff.mul bMinus
  let tau2 := taucoeff.mul bPlus
  -- base.py:292-294
  let phicoeff ← C.div ((Qty.nmul (Arith.ofNat 2) efficacy).mul eta)
  let bsMinus ← bStar.sub R rootDelta
  let bsPlus ← bStar.add R rootDelta
  let phi1 := phicoeff.mul bsMinus
  let phi2 := phicoeff.mul bsPlus
  -- base.py:296-298
  let dphi ← phi2.sub R phi1
  let adenom := C.mul dphi
  let a1 ← ((tau1.mul phi2).mul lambda0).div adenom
  let a2 ← ((tau2.neg.mul phi1).mul lambda0).div adenom
  pure { C, CD, b, bStar, delta, tau1, tau2, phi1, phi2, a1, a2 }

/-- numpy `arr[i]` for a non-negative index -/
def getAt (l : List α) (i : Nat) : Except Err α :=
  match l[i]? with
  | some x => .ok x
  | none => .error .index

/-- numpy `arr[i] = x` for a non-negative index -/
def setAt (l : List α) (i : Nat) (x : α) : Except Err (List α) :=
  if i < l.length then .ok (l.set i x) else .error .index

/-- The next value of `_timestep_idx` (`none` = NaN): `two_layer_model.py:203-207`,
`impulse_response_model.py:174-178`. -/
def nextIdx : Option Nat → Nat
  | none => 0
  | some k => k + 1

/-- `self._erf_mag[i]`, `two_layer_model.py:219`, `impulse_response_model.py:191, 199, 205` -/
def Core.erfAt (c : Core N α) (i : Nat) : Except Err α :=
  match c.erfMag with
  | none => .error .attribute
  | some l => getAt l i

/-- `np.zeros_like(self._erf_mag) * np.nan`, `two_layer_model.py:194`, `impulse_response_model.py:165` -/
def nanLike (l : List α) : List α := l.map fun _ => Arith.nan

/-- `k` successive calls of a method, stopping at the first exception (the loop of `_run`,
`two_layer_model.py:198-200`, `impulse_response_model.py:169-171`). -/
def Py.times {σ : Type} (x : Py σ Unit) : Nat → Py σ Unit
  | 0 => pure ()
  | k + 1 => do x; Py.times x k

/-- apply a method of the base class to the `Core` part of an object, inheritance from `TwoLayerVariant`, `base.py:78` -/
def Py.onCore {σ κ β : Type} (getC : σ → κ) (setC : σ → κ → σ) (x : Py κ β) : Py σ β := fun s =>
  let r := x (getC s)
  (setC s r.1, r.2)

end TwoLayer
