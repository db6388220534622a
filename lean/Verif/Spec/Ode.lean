import Mathlib.Analysis.SpecialFunctions.ExpDeriv

/-!
# The differential equations of the two models

In real numbers only; nothing here mentions the code.
-/

namespace TwoLayer

/-- `y` is a solution, from rest, of `d y' = q F - y` over `n` steps of length `dt`, with `F = F k` during step `k`:
continuous, and differentiable inside each step. -/
structure BoxODE (q d dt : ℝ) (n : ℕ) (F : ℕ → ℝ) (y : ℝ → ℝ) : Prop where
  rest : y 0 = 0
  cont : ContinuousOn y (Set.Icc 0 (n * dt))
  ode : ∀ k < n, ∀ t ∈ Set.Ioo (k * dt) ((k + 1) * dt), ∃ y', HasDerivAt y y' t ∧ d * y' = q * F k - y t

/-- `T`, `TD` solve the linear two-layer equations at time `t` under forcing `f`. -/
def TwoLayerODE (C D l e h f : ℝ) (T TD : ℝ → ℝ) (t : ℝ) : Prop :=
  ∃ T' TD', HasDerivAt T T' t ∧ HasDerivAt TD TD' t ∧
    C * T' = f - l * T t - e * h * (T t - TD t) ∧ D * TD' = h * (T t - TD t)

end TwoLayer
