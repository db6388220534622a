import Verif.Spec.Rounding
import Verif.Spec.Scenarios

/-! # Series returned by `run_scenarios`, up to an error -/

namespace TwoLayer
variable {N : Type} [Fintype N] [DecidableEq N] {r : Rounding}

/-- Row `k` of the returned frame is the series named `name` with unit `unit` of the `i`-th selected series `drv`: it has
the right metadata; at the time of the `j`-th non-missing value of `drv` (of which there are `n`) it holds a number, and
that number is within `ε` of `X j`; at all other times it holds NaN or nothing. -/
def ReturnedNear (R : Registry N (FR r)) (model : String) (params : List (String × Qty N (FR r))) (scen out : ScmRun (FR r))
    (i : Nat) (drv : Row (FR r)) (k : Nat) (name unit : String) (n : ℕ) (X : ℕ → ℝ) (ε : ℝ) : Prop :=
  ∃ Y : ℕ → ℝ, ReturnedRow R model params scen out i drv k (some (.str name)) (some (.str unit)) (fseries n Y) ∧
    ∀ j < n, |Y j - X j| ≤ ε

/-- The drivers: the `i`-th selected series is in W/m², its non-missing values are the `n i > 0` numbers
`F i 0, …, F i (n i - 1)`, all within ±100, and it does not bear the name of an output. -/
structure Drivers (sel : List (Row (FR r))) (n : ℕ → ℕ) (F : ℕ → ℕ → ℝ) : Prop where
  unit : ∀ (i : ℕ) (row : Row (FR r)), sel[i]? = some row → row.info.get "unit" = some (.str "W/m^2")
  name : ∀ (i : ℕ) (row : Row (FR r)), sel[i]? = some row → row.info.get "variable" ≠ some (.str "Heat Uptake")
  some_value : ∀ i < sel.length, n i ≠ 0
  values : ∀ (i : ℕ) (row : Row (FR r)), sel[i]? = some row → present row.vals = fseries (n i) (F i)
  size : ∀ i < sel.length, ∀ j < n i, |F i j| ≤ 100

end TwoLayer
