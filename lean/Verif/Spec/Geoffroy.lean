import Mathlib.Analysis.SpecialFunctions.Sqrt

/-!
# Geoffroy et al. (2013) in real numbers

The parameters of the two-layer model in terms of which the literature states its analytic solution, as
real-number formulas.  Nothing here mentions the code.
`C`, `D` are the heat capacities of the upper and lower layer, `l` the feedback parameter, `e` the efficacy,
`h` the heat exchange coefficient.
-/

namespace TwoLayer.Geo

noncomputable section
/-- general parameter `b` -/
def b (C D l e h : ℝ) : ℝ := (l + e * h) / C + h / D
/-- general parameter `b*` -/
def bStar (C D l e h : ℝ) : ℝ := (l + e * h) / C - h / D
/-- discriminant -/
def delta (C D l e h : ℝ) : ℝ := b C D l e h ^ 2 - 4 * l * h / (C * D)
/-- fast relaxation time -/
def tau1 (C D l e h : ℝ) : ℝ := C * D / (2 * l * h) * (b C D l e h - Real.sqrt (delta C D l e h))
/-- slow relaxation time -/
def tau2 (C D l e h : ℝ) : ℝ := C * D / (2 * l * h) * (b C D l e h + Real.sqrt (delta C D l e h))
/-- mode parameter of the fast mode: ratio of lower to upper temperature in the mode -/
def phi1 (C D l e h : ℝ) : ℝ := C / (2 * e * h) * (bStar C D l e h - Real.sqrt (delta C D l e h))
/-- mode parameter of the slow mode -/
def phi2 (C D l e h : ℝ) : ℝ := C / (2 * e * h) * (bStar C D l e h + Real.sqrt (delta C D l e h))
/-- partial equilibrium fraction of the fast mode -/
def a1 (C D l e h : ℝ) : ℝ :=
  tau1 C D l e h * phi2 C D l e h * l / (C * (phi2 C D l e h - phi1 C D l e h))
/-- partial equilibrium fraction of the slow mode -/
def a2 (C D l e h : ℝ) : ℝ :=
  -(tau2 C D l e h) * phi1 C D l e h * l / (C * (phi2 C D l e h - phi1 C D l e h))
/-- impulse response coefficient of the fast mode -/
def q1 (C D l e h : ℝ) : ℝ :=
  tau1 C D l e h * phi2 C D l e h / (C * (phi2 C D l e h - phi1 C D l e h))
/-- impulse response coefficient of the slow mode -/
def q2 (C D l e h : ℝ) : ℝ :=
  -(tau2 C D l e h) * phi1 C D l e h / (C * (phi2 C D l e h - phi1 C D l e h))

/-! The inverse relations: two-layer parameters of an impulse response with coefficients `q1`, `q2`,
timescales `d1`, `d2` and efficacy `e`. -/

/-- feedback parameter -/
def invL (q1 q2 : ℝ) : ℝ := 1 / (q1 + q2)
/-- upper heat capacity -/
def invC (q1 q2 d1 d2 : ℝ) : ℝ := d1 * d2 / (q1 * d2 + q2 * d1)
/-- lower heat capacity -/
def invD (q1 q2 d1 d2 e : ℝ) : ℝ :=
  (invL q1 q2 * (d1 * (invL q1 q2 * q1) + d2 * (invL q1 q2 * q2)) - invC q1 q2 d1 d2) / e
/-- heat exchange coefficient -/
def invH (q1 q2 d1 d2 e : ℝ) : ℝ :=
  invD q1 q2 d1 d2 e / (d1 * (invL q1 q2 * q2) + d2 * (invL q1 q2 * q1))
end

end TwoLayer.Geo
