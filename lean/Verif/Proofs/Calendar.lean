import Verif.Spec.Calendar

/-! # The model's calendar arithmetic is the Gregorian calendar -/

set_option linter.unusedSimpArgs false

namespace TwoLayer
open Cal

theorem daysBeforeYear_succ (y : Int) : daysBeforeYear (y + 1) = daysBeforeYear y + yearLen y := by
  unfold daysBeforeYear yearLen
  by_cases h : leap y
  · rw [if_pos h]; unfold leap at h; omega
  · rw [if_neg h]; unfold leap at h; omega

theorem isJan1_daysBeforeYear : IsJan1 daysBeforeYear := ⟨by decide, daysBeforeYear_succ⟩

theorem IsJan1.unique {j : Int → Int} (h : IsJan1 j) : j = daysBeforeYear := by
  have up : ∀ n : ℕ, j (1970 + n) = daysBeforeYear (1970 + n) := by
    intro n
    induction n with
    | zero => simpa using h.epoch.trans isJan1_daysBeforeYear.epoch.symm
    | succ n ih =>
      have e : (1970 + ((n + 1 : ℕ) : Int)) = (1970 + n) + 1 := by push_cast; ring
      rw [e, h.next, daysBeforeYear_succ, ih]
  have down : ∀ n : ℕ, j (1970 - n) = daysBeforeYear (1970 - n) := by
    intro n
    induction n with
    | zero => simpa using h.epoch.trans isJan1_daysBeforeYear.epoch.symm
    | succ n ih =>
      have e : (1970 - n : Int) = (1970 - ((n + 1 : ℕ) : Int)) + 1 := by push_cast; ring
      rw [e, h.next, daysBeforeYear_succ] at ih
      linarith
  funext y
  rcases le_total 1970 y with hy | hy
  · have := up (y - 1970).toNat
    rwa [Int.toNat_of_nonneg (by omega), show 1970 + (y - 1970) = y by ring] at this
  · have := down (1970 - y).toNat
    rwa [Int.toNat_of_nonneg (by omega), show 1970 - (1970 - y) = y by ring] at this

theorem yearOfDay_spec (d : Int) : daysBeforeYear (yearOfDay d) ≤ d ∧ d < daysBeforeYear (yearOfDay d + 1) := by
  unfold yearOfDay
  simp only
  split
  · next h =>
    refine ⟨?_, by simpa using h⟩
    unfold daysBeforeYear at *
    omega
  · next h =>
    split
    · next h' =>
      refine ⟨h', ?_⟩
      unfold daysBeforeYear at *
      omega
    · next h' => exact ⟨by omega, by omega⟩

theorem daysBeforeYear_mono {y z : Int} (h : y < z) : daysBeforeYear y < daysBeforeYear z := by
  unfold daysBeforeYear; omega

theorem yearOf_spec (t y : Int) : yearOf t = y ↔ InYear daysBeforeYear t y := by
  have hs := yearOfDay_spec (dayOf t)
  have key : InYear daysBeforeYear t (yearOf t) := by
    unfold InYear yearOf
    unfold dayOf at *
    omega
  constructor
  · rintro rfl; exact key
  · intro h
    rcases lt_trichotomy (yearOf t) y with hlt | heq | hgt
    · have : daysBeforeYear (yearOf t + 1) ≤ daysBeforeYear y := by
        rcases eq_or_lt_of_le (show yearOf t + 1 ≤ y by omega) with e | e
        · rw [e]
        · exact (daysBeforeYear_mono e).le
      unfold InYear at *; omega
    · exact heq
    · have : daysBeforeYear (y + 1) ≤ daysBeforeYear (yearOf t) := by
        rcases eq_or_lt_of_le (show y + 1 ≤ yearOf t by omega) with e | e
        · rw [e]
        · exact (daysBeforeYear_mono e).le
      unfold InYear at *; omega

theorem diffs_all (p : Int → Bool) (l : List Int) :
    (diffs l).all p = true ↔ ∀ (i : ℕ) (a b : Int), l[i]? = some a → l[i + 1]? = some b → p (b - a) = true := by
  induction l with
  | nil => simp [diffs]
  | cons x l ih =>
    cases l with
    | nil => simp [diffs]
    | cons y l =>
      simp only [diffs, List.all_cons, Bool.and_eq_true, ih]
      constructor
      · rintro ⟨h1, h2⟩ i a b ha hb
        cases i with
        | zero => simp at ha hb; subst ha hb; exact h1
        | succ i => exact h2 i a b (by simpa using ha) (by simpa using hb)
      · intro h
        exact ⟨h 0 x y (by simp) (by simp), fun i a b ha hb => h (i + 1) a b (by simpa using ha) (by simpa using hb)⟩

/-! ## Months -/

theorem IsMonthStart.edges {j s : Int → Int} (h : IsMonthStart j s) (y : Int) :
    s (12 * y + 1) = j y + 31 ∧ s (12 * y + 11) = j y + yearLen y - 31 := by
  have hs : ∀ m : Int, 0 ≤ m → m < 12 → s (12 * y + m + 1) = s (12 * y + m) + monthLen y m := by
    intro m h0 h1
    have := h.next (12 * y + m)
    rwa [show (12 * y + m) / 12 = y by omega, show (12 * y + m) % 12 = m by omega] at this
  have s0 := hs 0 (by omega) (by omega)
  have s1 := hs 1 (by omega) (by omega)
  have s2 := hs 2 (by omega) (by omega)
  have s3 := hs 3 (by omega) (by omega)
  have s4 := hs 4 (by omega) (by omega)
  have s5 := hs 5 (by omega) (by omega)
  have s6 := hs 6 (by omega) (by omega)
  have s7 := hs 7 (by omega) (by omega)
  have s8 := hs 8 (by omega) (by omega)
  have s9 := hs 9 (by omega) (by omega)
  have s10 := hs 10 (by omega) (by omega)
  have e := h.january y
  simp only [monthLen, yearLen] at *
  norm_num at *
  ring_nf at *
  by_cases hl : leap y
  · simp only [hl, if_true] at *
    exact ⟨by linarith, by linarith⟩
  · simp only [hl, if_false] at *
    exact ⟨by linarith, by linarith⟩
end TwoLayer

namespace TwoLayer
open Cal

theorem monthLen_bounds (y m : Int) : 28 ≤ monthLen y m ∧ monthLen y m ≤ 31 := by
  unfold monthLen; split_ifs <;> omega

theorem IsMonthStart.lt {j s : Int → Int} (h : IsMonthStart j s) (k : Int) (n : ℕ) : s k + 28 * n ≤ s (k + n) := by
  induction n with
  | zero => simp
  | succ n ih =>
    have := h.next (k + n)
    have hb := monthLen_bounds ((k + n) / 12) ((k + n) % 12)
    rw [show k + ((n + 1 : ℕ) : Int) = k + n + 1 by push_cast; ring, this]
    push_cast
    linarith

/-- the first day of month `k`, and the 27 days after it, are in year `k / 12` -/
theorem IsMonthStart.inYear {j s : Int → Int} (h : IsMonthStart j s) (k o : Int) (h0 : 0 ≤ o) (h1 : o < 28 * 86400) :
    InYear j (86400 * s k + o) (k / 12) := by
  have a := IsMonthStart.lt h (12 * (k / 12)) (k % 12).toNat
  have b := IsMonthStart.lt h k (12 - k % 12).toNat
  rw [Int.toNat_of_nonneg (by omega)] at a b
  rw [show 12 * (k / 12) + k % 12 = k by omega, h.january] at a
  rw [show k + (12 - k % 12) = 12 * (k / 12 + 1) by omega, h.january] at b
  unfold InYear
  constructor
  · nlinarith [Int.emod_nonneg k (show (12 : Int) ≠ 0 by norm_num)]
  · have := Int.emod_lt_of_pos k (show (0 : Int) < 12 by norm_num)
    nlinarith

/-- days before month `m` in year `y` -/
def cumDays (y m : Int) : Int :=
  if m = 0 then 0
  else if m = 1 then 31
  else (if leap y then 1 else 0) +
    (if m = 2 then 59 else if m = 3 then 90 else if m = 4 then 120 else if m = 5 then 151 else if m = 6 then 181
     else if m = 7 then 212 else if m = 8 then 243 else if m = 9 then 273 else if m = 10 then 304 else 334)

theorem IsMonthStart.unique {j s s' : Int → Int} (h : IsMonthStart j s) (h' : IsMonthStart j s') : s = s' := by
  have up : ∀ (y : Int) (n : ℕ), s (12 * y + n) = s' (12 * y + n) := by
    intro y n
    induction n with
    | zero => simp [h.january, h'.january]
    | succ n ih =>
      rw [show 12 * y + ((n + 1 : ℕ) : Int) = 12 * y + n + 1 by push_cast; ring, h.next, h'.next, ih]
  funext k
  have := up (k / 12) (k % 12).toNat
  rwa [Int.toNat_of_nonneg (by omega), show 12 * (k / 12) + k % 12 = k by omega] at this

/-- such a numbering of month starts exists -/
theorem isMonthStart_exists : IsMonthStart daysBeforeYear (fun k => daysBeforeYear (k / 12) + cumDays (k / 12) (k % 12)) := by
  constructor
  · intro y
    rw [show 12 * y / 12 = y by omega, show 12 * y % 12 = 0 by omega]
    simp [cumDays]
  · intro k
    have hm : 0 ≤ k % 12 ∧ k % 12 < 12 := by omega
    by_cases h11 : k % 12 = 11
    · rw [show (k + 1) / 12 = k / 12 + 1 by omega, show (k + 1) % 12 = 0 by omega, h11, daysBeforeYear_succ]
      simp only [cumDays, monthLen, yearLen]
      norm_num
      split_ifs <;> omega
    · rw [show (k + 1) / 12 = k / 12 by omega, show (k + 1) % 12 = k % 12 + 1 by omega]
      obtain ⟨m, hm'⟩ : ∃ m, k % 12 = m := ⟨_, rfl⟩
      rw [hm'] at hm h11 ⊢
      have : m = 0 ∨ m = 1 ∨ m = 2 ∨ m = 3 ∨ m = 4 ∨ m = 5 ∨ m = 6 ∨ m = 7 ∨ m = 8 ∨ m = 9 ∨ m = 10 := by omega
      rcases this with rfl | rfl | rfl | rfl | rfl | rfl | rfl | rfl | rfl | rfl | rfl <;>
        simp only [cumDays, monthLen] <;> norm_num <;> split_ifs <;> omega

theorem selectTimestep_yearly (times : List Int) : selectTimestep times = .ok .yearly ↔
    ∀ (i : ℕ) (a b : Int), times[i]? = some a → times[i + 1]? = some b → yearOf b = yearOf a + 1 := by
  have key : (diffs (times.map yearOf)).all (fun d => d == 1) = true ↔
      ∀ (i : ℕ) (a b : Int), times[i]? = some a → times[i + 1]? = some b → yearOf b = yearOf a + 1 := by
    rw [diffs_all]
    constructor
    · intro h i a b ha hb
      have := h i (yearOf a) (yearOf b) (by simp [ha]) (by simp [hb])
      simp only [beq_iff_eq] at this
      omega
    · intro h i a b ha hb
      simp only [List.getElem?_map, Option.map_eq_some_iff] at ha hb
      obtain ⟨a', ha', rfl⟩ := ha
      obtain ⟨b', hb', rfl⟩ := hb
      have := h i a' b' ha' hb'
      simp only [beq_iff_eq]
      omega
  rw [← key]
  unfold selectTimestep
  constructor
  · intro h
    split at h
    · next h' => exact h'
    · split at h <;> cases h
  · intro h
    rw [if_pos h]

theorem monthlyGaps_iff (times : List Int) :
    (diffs times).all (fun d => decide (d ≤ 31 * 86400) && decide (28 * 86400 ≤ d)) = true ↔ MonthlyAxis times := by
  rw [diffs_all]
  unfold MonthlyAxis
  simp only [Bool.and_eq_true, decide_eq_true_eq]
  exact ⟨fun h i a b ha hb => (h i a b ha hb).symm, fun h i a b ha hb => (h i a b ha hb).symm⟩

theorem selectTimestep_cases (times : List Int) :
    (selectTimestep times = .ok .yearly) ∨
    (selectTimestep times ≠ .ok .yearly ∧ MonthlyAxis times ∧ selectTimestep times = .ok .monthly) ∨
    (selectTimestep times ≠ .ok .yearly ∧ ¬ MonthlyAxis times ∧ selectTimestep times = .error .notImplemented) := by
  unfold selectTimestep
  by_cases h1 : (diffs (times.map yearOf)).all (fun d => d == 1) = true
  · left; rw [if_pos h1]
  · right
    rw [if_neg h1]
    by_cases h2 : (diffs times).all (fun d => decide (d ≤ 31 * 86400) && decide (28 * 86400 ≤ d)) = true
    · left
      rw [if_pos h2]
      exact ⟨by simp, (monthlyGaps_iff _).mp h2, rfl⟩
    · right
      rw [if_neg h2]
      exact ⟨by simp, fun h => h2 ((monthlyGaps_iff _).mpr h), rfl⟩

end TwoLayer
