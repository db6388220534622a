import Verif.Model.Time

/-!
# The proleptic Gregorian calendar

Written from the calendar's rules, without the arithmetic of `Model/Time.lean`: leap years, lengths of years and
months, and the first day of every year by counting from 1970-01-01 in both directions.
-/

namespace TwoLayer.Cal

/-- every fourth year is a leap year, except centuries not divisible by 400 -/
def leap (y : Int) : Prop := y % 4 = 0 ∧ (y % 100 ≠ 0 ∨ y % 400 = 0)

instance (y : Int) : Decidable (leap y) := by unfold leap; infer_instance

/-- days in a year -/
def yearLen (y : Int) : Int := if leap y then 366 else 365

/-- `jan1` numbers the days (1970-01-01 is day 0) and gives January 1st of every year -/
structure IsJan1 (jan1 : Int → Int) : Prop where
  epoch : jan1 1970 = 0
  next : ∀ y, jan1 (y + 1) = jan1 y + yearLen y

/-- `t` (seconds since 1970-01-01T00:00:00) falls in the calendar year `y` -/
def InYear (jan1 : Int → Int) (t y : Int) : Prop := 86400 * jan1 y ≤ t ∧ t < 86400 * jan1 (y + 1)

/-- days in month `m` (0 = January … 11 = December) of year `y` -/
def monthLen (y m : Int) : Int :=
  if m = 1 then (if leap y then 29 else 28)
  else if m = 3 ∨ m = 5 ∨ m = 8 ∨ m = 10 then 30
  else 31

/-- `mstart` gives the first day of every month, months numbered consecutively, month `12 y + m` being month `m` of
year `y` -/
structure IsMonthStart (jan1 mstart : Int → Int) : Prop where
  january : ∀ y, mstart (12 * y) = jan1 y
  next : ∀ k, mstart (k + 1) = mstart k + monthLen (k / 12) (k % 12)

/-- consecutive times lie in consecutive calendar years -/
def YearlyAxis (jan1 : Int → Int) (times : List Int) : Prop :=
  ∀ (i : ℕ) (a b y : Int), times[i]? = some a → times[i + 1]? = some b → InYear jan1 a y → InYear jan1 b (y + 1)

/-- consecutive times are 28 to 31 days apart, both inclusive -/
def MonthlyAxis (times : List Int) : Prop :=
  ∀ (i : ℕ) (a b : Int), times[i]? = some a → times[i + 1]? = some b → 28 * 86400 ≤ b - a ∧ b - a ≤ 31 * 86400

end TwoLayer.Cal
