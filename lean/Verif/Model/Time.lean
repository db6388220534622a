import Verif.Model.Base
import Mathlib.Tactic

/-!
# Time axes and `_select_timestep` (`base.py:153-173`)

A time is an integer number of seconds since 1970-01-01T00:00:00 (scmdata stores `datetime64[s]`).
-/

namespace TwoLayer

/-- number of days from 1970-01-01 to January 1st of year `y`, proleptic Gregorian calendar (numpy's) -/
def daysBeforeYear (y : Int) : Int :=
  365 * (y - 1970) + ((y - 1) / 4 - (y - 1) / 100 + (y - 1) / 400) - 477

/-- the day (since 1970-01-01) of a time, used for `driver["year"]`, `base.py:155` -/
def dayOf (t : Int) : Int := t / 86400

/-- calendar year of a day: an estimate corrected by at most one, used for `driver["year"]`, `base.py:155` -/
def yearOfDay (d : Int) : Int :=
  let y := 1970 + (400 * d) / 146097
  if d < daysBeforeYear y then y - 1
  else if daysBeforeYear (y + 1) ≤ d then y + 1
  else y

/-- `driver["year"]`, `base.py:155` (scmdata derives it from the time axis) -/
def yearOf (t : Int) : Int := yearOfDay (dayOf t)

/-- `series.diff().dropna()`, `base.py:155, 160` -/
def diffs : List Int → List Int
  | a :: b :: l => (b - a) :: diffs (b :: l)
  | _ => []

/-- The two supported time steps. (`base.py:158, 169`) -/
inductive Timestep where
  | yearly
  | monthly
deriving DecidableEq, Repr

/-- `_select_timestep`, `base.py:153-173`, on the driver's time axis. -/
def selectTimestep (times : List Int) : Except Err Timestep :=
  if (diffs (times.map yearOf)).all (fun d => d == 1) then .ok .yearly
  else if (diffs times).all (fun d => decide (d ≤ 31 * 86400) && decide (28 * 86400 ≤ d)) then .ok .monthly
  else .error .notImplemented

/-- The Quantity `1 * ur("yr")` / `1 * ur("month")` returned, `base.py:158,169`. -/
def Timestep.qty {N α : Type} [Fintype N] [DecidableEq N] [Arith α] (R : Registry N α) : Timestep → Qty N α
  | .yearly => ⟨Arith.ofNat 1, R.yr⟩
  | .monthly => ⟨Arith.ofNat 1, R.mon⟩

end TwoLayer
