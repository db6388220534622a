import Verif.Model.ImpulseResponse

/-!
# In-place changes of the drivers by the caller

`self._erf = val` (`base.py:111`) stores the caller's Quantity itself, not a copy, and
`self._erf_mag = val.to("W/m^2").magnitude` (`base.py:112`) is the caller's array itself if its unit already is
`W/m^2` (pint's `convert` returns its argument when source and target units are equal) and a new array otherwise.
The rest of the model treats arrays as immutable values; here is what a caller's in-place assignment does.
-/

namespace TwoLayer
variable {N α : Type} [Fintype N] [DecidableEq N] [Arith α]

/-- `q.magnitude[:] = new` on the Quantity `q` last accepted as drivers (`base.py:108-112`).  In-place assignment
cannot change the length: numpy then refuses, and nothing changes. -/
def Core.overwrite (R : Registry N α) (new : List α) (c : Core N α) : Core N α :=
  match c.erf with
  | .unset => c
  | .set vals u =>
    if new.length = vals.length then
      { c with erf := .set new u, erfMag := if u = R.wm2 then some new else c.erfMag }
    else c

/-- the same, for the object holding the drivers, `base.py:111-112` -/
def TLM.overwrite (R : Registry N α) (new : List α) : Py (TLM N α) Unit :=
  Py.modify fun m => { m with core := m.core.overwrite R new }

/-- the same, for the object holding the drivers, `base.py:111-112` -/
def IRM.overwrite (R : Registry N α) (new : List α) : Py (IRM N α) Unit :=
  Py.modify fun m => { m with core := m.core.overwrite R new }

/-- `q.ito(v)` on the Quantity `q` last accepted as drivers (`base.py:108-112`): pint multiplies a (floating-point) array
magnitude in place, so that the array cached by `base.py:112` changes too if it is the same array.  Nothing changes if
pint refuses (`DimensionalityError`). -/
def Core.itoErf (R : Registry N α) (v : Units N) (c : Core N α) : Core N α :=
  match c.erf with
  | .unset => c
  | .set vals u =>
    if u = v ∨ R.compat u v = true then
      { c with erf := .set (magsIn R vals u v) v, erfMag := if u = R.wm2 then some (magsIn R vals u v) else c.erfMag }
    else c

/-- the same, for the object holding the drivers, `base.py:106` -/
def TLM.itoErf (R : Registry N α) (v : Units N) : Py (TLM N α) Unit :=
  Py.modify fun m => { m with core := m.core.itoErf R v }

/-- the same, for the object holding the drivers, `base.py:106` -/
def IRM.itoErf (R : Registry N α) (v : Units N) : Py (IRM N α) Unit :=
  Py.modify fun m => { m with core := m.core.itoErf R v }

end TwoLayer
