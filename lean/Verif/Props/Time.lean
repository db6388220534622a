import Verif.Proofs.Calendar

/-!
# C51, C52: the time step `run_scenarios` selects

Stated on the time axis alone; `Props/Scenarios.lean` lifts them to `run_scenarios` calls.  `jan1` and `mstart` are any
functions satisfying the calendar rules of `Spec/Calendar.lean` (there is exactly one of each).
-/

set_option linter.unusedSimpArgs false

namespace TwoLayer
open Cal

/-- The calendar of `Spec/Calendar.lean` exists and is unique; every time is in exactly one year. -/
theorem C52_calendar :
    (∃! j, IsJan1 j) ∧ (∀ j, IsJan1 j → ∃! s, IsMonthStart j s) ∧ (∀ j, IsJan1 j → ∀ t, ∃! y, InYear j t y) := by
  refine ⟨⟨_, isJan1_daysBeforeYear, fun j h => IsJan1.unique h⟩, ?_, ?_⟩
  · intro j h
    have := IsJan1.unique h
    subst this
    exact ⟨_, isMonthStart_exists, fun s hs => IsMonthStart.unique hs isMonthStart_exists⟩
  · intro j h t
    have := IsJan1.unique h
    subst this
    exact ⟨yearOf t, (yearOf_spec t _).mp rfl, fun y hy => ((yearOf_spec t y).mpr hy).symm⟩

theorem selectTimestep_yearlyAxis {j : Int → Int} (hj : IsJan1 j) (times : List Int) :
    selectTimestep times = .ok .yearly ↔ YearlyAxis j times := by
  have := IsJan1.unique hj
  subst this
  rw [selectTimestep_yearly]
  constructor
  · intro h i a b y ha hb hy
    rw [← yearOf_spec] at hy ⊢
    rw [h i a b ha hb, hy]
  · intro h i a b ha hb
    exact (yearOf_spec _ _).mpr (h i a b _ ha hb ((yearOf_spec _ _).mp rfl))

/-- **C51.**  One year exactly when consecutive times lie in consecutive calendar years; otherwise one month exactly
when all gaps are 28 to 31 days; otherwise `NotImplementedError`. -/
theorem C51_select {j : Int → Int} (hj : IsJan1 j) (times : List Int) :
    (selectTimestep times = .ok .yearly ↔ YearlyAxis j times) ∧
    (selectTimestep times = .ok .monthly ↔ ¬ YearlyAxis j times ∧ MonthlyAxis times) ∧
    (selectTimestep times = .error .notImplemented ↔ ¬ YearlyAxis j times ∧ ¬ MonthlyAxis times) := by
  rw [← selectTimestep_yearlyAxis hj]
  rcases selectTimestep_cases times with h | ⟨h1, h2, h3⟩ | ⟨h1, h2, h3⟩
  · simp [h]
  · simp [h3, h2]
  · simp [h3, h2]

/-- three times in consecutive calendar years span more than a year -/
theorem yearly_not_monthly {j : Int → Int} (hj : IsJan1 j) {times : List Int} (hlen : 3 ≤ times.length)
    (hm : MonthlyAxis times) : ¬ YearlyAxis j times := by
  have := IsJan1.unique hj
  subst this
  intro hy
  have h0 : times[0]? = some times[0] := List.getElem?_eq_getElem (by omega)
  have h1 : times[1]? = some times[1] := List.getElem?_eq_getElem (by omega)
  have h2 : times[2]? = some times[2] := List.getElem?_eq_getElem (by omega)
  have y0 : InYear daysBeforeYear times[0] (yearOf times[0]) := (yearOf_spec _ _).mp rfl
  have y1 := hy 0 _ _ _ h0 h1 y0
  have y2 := hy 1 _ _ _ h1 h2 y1
  have m0 := hm 0 _ _ h0 h1
  have m1 := hm 1 _ _ h1 h2
  have e : daysBeforeYear (yearOf times[0] + 1 + 1) = daysBeforeYear (yearOf times[0] + 1) + yearLen (yearOf times[0] + 1) :=
    daysBeforeYear_succ _
  have : 365 ≤ yearLen (yearOf times[0] + 1) := by unfold yearLen; split_ifs <;> omega
  unfold InYear at y0 y1 y2
  omega

/-- An axis with one time in each of the consecutive calendar years `y0, y0+1, …`, wherever in the year. -/
def OnePerYear (j : Int → Int) (y0 : Int) (times : List Int) : Prop :=
  ∀ (i : ℕ) (t : Int), times[i]? = some t → InYear j t (y0 + i)

/-- The axis of `n` consecutive months starting with month `k0`, at offset `o` from the start of each month. -/
def monthAxis (s : Int → Int) (k0 o : Int) (n : ℕ) : List Int :=
  (List.range n).map fun i : ℕ => 86400 * s (k0 + (i : Int)) + o

theorem monthAxis_monthly {j s : Int → Int} (hs : IsMonthStart j s) (k0 o : Int) (n : ℕ) :
    MonthlyAxis (monthAxis s k0 o n) := by
  intro i a b ha hb
  unfold monthAxis at ha hb
  simp only [List.getElem?_map, Option.map_eq_some_iff] at ha hb
  obtain ⟨i1, h1, rfl⟩ := ha
  obtain ⟨i2, h2, rfl⟩ := hb
  rw [List.getElem?_eq_some_iff] at h1 h2
  obtain ⟨_, h1⟩ := h1
  obtain ⟨_, h2⟩ := h2
  simp only [List.getElem_range] at h1 h2
  subst h1 h2
  have := hs.next (k0 + i)
  have hb := monthLen_bounds ((k0 + i) / 12) ((k0 + i) % 12)
  rw [show k0 + ((i + 1 : ℕ) : Int) = k0 + i + 1 by push_cast; ring, this]
  constructor <;> linarith

/-- **C52 (yearly).**  One time per consecutive calendar year gets a step of one year, for every start and length. -/
theorem C52_yearly {j : Int → Int} (hj : IsJan1 j) (y0 : Int) (times : List Int) (h : OnePerYear j y0 times) :
    selectTimestep times = .ok .yearly := by
  rw [selectTimestep_yearlyAxis hj]
  intro i a b y ha hb hy
  have h1 := h i a ha
  have h2 := h (i + 1) b hb
  obtain ⟨_, _, hu⟩ := C52_calendar
  have : y = y0 + i := (hu j hj a).unique hy h1
  subst this
  push_cast at h2
  rwa [add_assoc]

/-- **C52 (monthly, what holds).**  A month axis of at least three points, at any offset from the month starts, gets one
month.  Missing from the full property: axes of one or two points, see the next two theorems. -/
theorem C52_partial {j s : Int → Int} (hj : IsJan1 j) (hs : IsMonthStart j s) (k0 o : Int) (n : ℕ) (hn : 3 ≤ n) :
    selectTimestep (monthAxis s k0 o n) = .ok .monthly :=
  (C51_select hj _).2.1.mpr
    ⟨yearly_not_monthly hj (by simp [monthAxis, hn]) (monthAxis_monthly hs k0 o n), monthAxis_monthly hs k0 o n⟩

/-- A two-point month axis gets one month unless it goes from December to January. -/
theorem C52_two_points {j s : Int → Int} (hj : IsJan1 j) (hs : IsMonthStart j s) (k0 o : Int)
    (h0 : 0 ≤ o) (h1 : o < 28 * 86400) :
    selectTimestep (monthAxis s k0 o 2) = .ok .monthly ↔ k0 % 12 ≠ 11 := by
  rw [(C51_select hj _).2.1]
  have hm := monthAxis_monthly hs k0 o 2
  simp only [hm, and_true]
  have a0 := IsMonthStart.inYear hs k0 o h0 h1
  have a1 := IsMonthStart.inYear hs (k0 + 1) o h0 h1
  obtain ⟨_, _, hu⟩ := C52_calendar
  have key : YearlyAxis j (monthAxis s k0 o 2) ↔ k0 % 12 = 11 := by
    constructor
    · intro hy
      have := hy 0 (86400 * s k0 + o) (86400 * s (k0 + 1) + o) (k0 / 12) (by simp [monthAxis]) (by simp [monthAxis]) a0
      have := (hu j hj _).unique this a1
      omega
    · intro hk i a b y ha hb hy
      have hi : i = 0 := by
        have := (List.getElem?_eq_some_iff.mp hb).1
        simp [monthAxis] at this
        omega
      subst hi
      have ea : a = 86400 * s k0 + o := by simpa [monthAxis] using ha.symm
      have eb : b = 86400 * s (k0 + 1) + o := by simpa [monthAxis] using hb.symm
      subst ea eb
      have := (hu j hj _).unique hy a0
      subst this
      rwa [show k0 / 12 + 1 = (k0 + 1) / 12 by omega]
  rw [key]

/-- **C52 fails in general**: the month starts 2000-12-01, 2001-01-01 get a step of one *year*. -/
theorem C52_counterexample :
    ∃ (j s : Int → Int) (k0 : Int), IsJan1 j ∧ IsMonthStart j s ∧
      monthAxis s k0 0 2 = [975628800, 978307200] ∧ selectTimestep (monthAxis s k0 0 2) = .ok .yearly := by
  refine ⟨_, _, 12 * 2000 + 11, isJan1_daysBeforeYear, isMonthStart_exists, by decide, by decide⟩

/-- The selected step need not match the gaps: two times one second apart on either side of new year, and two times 730
days apart in consecutive years, are both taken to be one year apart. -/
theorem C51_gap_ignored :
    selectTimestep [978307199, 978307200] = .ok .yearly ∧
    selectTimestep [946684800, 946684800 + 730 * 86400] = .ok .yearly := by decide

/-- A single time, or none, is taken to be yearly. -/
theorem C51_single (t : Int) : selectTimestep [t] = .ok .yearly ∧ selectTimestep [] = .ok .yearly := by
  constructor <;> simp [selectTimestep, diffs]

/-! ## Concrete cases -/

/-- 2000-01-01, 2001-01-01, 2002-01-01 -/
example : OnePerYear daysBeforeYear 2000 [946684800, 978307200, 1009843200] := by
  intro i t h
  have : i < 3 := (List.getElem?_eq_some_iff.mp h).1
  interval_cases i <;> simp at h <;> subst h <;> (unfold InYear; decide)

/-- 2000-01-01, 2000-02-01, 2000-03-01 is a month axis; quarterly times are refused -/
example : selectTimestep [946684800, 949363200, 951868800] = .ok .monthly := by decide
example : selectTimestep [946684800, 954547200, 962409600] = .error .notImplemented := by decide

end TwoLayer
