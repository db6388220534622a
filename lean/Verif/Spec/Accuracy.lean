import Verif.Spec.Convert

/-!
# The differential equations under a forcing that varies within a time step

In real numbers only.
-/

namespace TwoLayer

/-- The two-layer equations `C T' = f - l T - e h (T - TD)`, `D TD' = h (T - TD)` from rest over `n` steps of length
`p.dt` under the forcing `f t`; `f` may jump at the ends of steps. -/
structure TwoLayerForced (p : TLPar) (n : ℕ) (f : ℝ → ℝ) (T TD : ℝ → ℝ) : Prop where
  rest : T 0 = 0 ∧ TD 0 = 0
  contT : ContinuousOn T (Set.Icc 0 (n * p.dt))
  contTD : ContinuousOn TD (Set.Icc 0 (n * p.dt))
  ode : ∀ k < n, ∀ t ∈ Set.Ioo (k * p.dt) ((k + 1) * p.dt), TwoLayerODE p.C p.D p.l p.e p.h (f t) T TD t

/-- The two-layer equations with state-dependent feedback `C T' = f - (l - a T) T - e h (T - TD)`,
`D TD' = h (T - TD)` from rest over `n` steps of length `p.dt` under the forcing `f t`; `f` may jump at the ends of
steps. -/
structure TwoLayerStateForced (p : TLPar) (n : ℕ) (f : ℝ → ℝ) (T TD : ℝ → ℝ) : Prop where
  rest : T 0 = 0 ∧ TD 0 = 0
  contT : ContinuousOn T (Set.Icc 0 (n * p.dt))
  contTD : ContinuousOn TD (Set.Icc 0 (n * p.dt))
  ode : ∀ k < n, ∀ t ∈ Set.Ioo (k * p.dt) ((k + 1) * p.dt), ∃ T' TD', HasDerivAt T T' t ∧ HasDerivAt TD TD' t ∧
    p.C * T' = f t - (p.l - p.a * T t) * T t - p.e * p.h * (T t - TD t) ∧ p.D * TD' = p.h * (T t - TD t)

/-- One box, `d y' = q f - y` from rest over `n` steps of length `dt` under the forcing `f t`. -/
structure BoxForced (q d dt : ℝ) (n : ℕ) (f : ℝ → ℝ) (y : ℝ → ℝ) : Prop where
  rest : y 0 = 0
  cont : ContinuousOn y (Set.Icc 0 (n * dt))
  ode : ∀ k < n, ∀ t ∈ Set.Ioo (k * dt) ((k + 1) * dt), ∃ y', HasDerivAt y y' t ∧ d * y' = q * f t - y t

/-- during each of the `n` steps `f` stays within `δ` of the value `F k` used by the model for that step -/
def Samples (F : ℕ → ℝ) (f : ℝ → ℝ) (dt : ℝ) (n : ℕ) (δ : ℝ) : Prop :=
  ∀ k < n, ∀ t ∈ Set.Ioo (k * dt) ((k + 1) * dt), |f t - F k| ≤ δ

end TwoLayer
