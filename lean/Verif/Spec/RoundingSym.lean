import Verif.Spec.Rounding

/-!
# Exact facts about floating-point runs: the vocabulary

Roundings that treat both signs alike, and roundings that respect order.  IEEE-754 rounding to nearest (ties to even) does
both; signed zeros are one number here.
-/

namespace TwoLayer

/-- both signs are rounded alike -/
def Rounding.Odd (r : Rounding) : Prop := ∀ x, r.fl (-x) = -r.fl x

/-- Rounding respects order, keeps zero, one and its own results; `exp` of a non-positive number is between zero and
one. -/
structure Rounding.Ordered (r : Rounding) : Prop where
  zero : r.fl 0 = 0
  one : r.fl 1 = 1
  mono : ∀ x y, x ≤ y → r.fl x ≤ r.fl y
  idem : ∀ x, r.fl (r.fl x) = r.fl x
  exp : ∀ x ≤ 0, 0 ≤ r.exp x ∧ r.exp x ≤ 1

variable {r : Rounding}

/-- the same series with all values negated -/
noncomputable def negated (o : List (String × String × List (FR r))) : List (String × String × List (FR r)) :=
  o.map fun s => (s.1, s.2.1, s.2.2.map fun x => -x)

/-- the series `f`, `k` steps later, and zero before -/
noncomputable def delayed (k : ℕ) (f : ℕ → ℝ) (i : ℕ) : ℝ := if i < k then 0 else f (i - k)

end TwoLayer
