import Verif.Spec.Equations

/-!
# Quantities as physical values

`Size L q x`: the Quantity `q`, whatever its unit, is `x` times the product of base units of its dimension, i.e. its
magnitude times the size of each named unit, raised to the power in which it occurs.  Nothing here refers to the units
in which the models compute.
-/

namespace TwoLayer
variable {N : Type} [Fintype N] [DecidableEq N] {R : Registry N XR}

/-- magnitude times size of the unit -/
def Size (L : R.Lawful) (q : Qty N XR) (x : ℝ) : Prop := ∃ v, q.mag = .fin v ∧ x = v * scaleOf L.scale q.unit

/-- The public parameters of a two-layer object as physical values.  Heat capacity of a layer per area: depth times
1000 kg/m³ times 4181 J/kg/K. -/
structure TLM.Sizes (L : R.Lawful) (m : TLM N XR) (P : TLPar) : Prop where
  du : Size L m.du
    (P.C / (1000 * (L.scale R.kilogram / L.scale R.meter ^ 3) *
      (4181 * (L.scale R.joule / L.scale R.kilogram / L.scale R.ddegC))))
  dl : Size L m.dl
    (P.D / (1000 * (L.scale R.kilogram / L.scale R.meter ^ 3) *
      (4181 * (L.scale R.joule / L.scale R.kilogram / L.scale R.ddegC))))
  lambda0 : Size L m.lambda0 P.l
  a : Size L m.a P.a
  efficacy : Size L m.efficacy P.e
  eta : Size L m.eta P.h
  dt : Size L m.core.deltaT P.dt

/-- the public parameters of an impulse response object as physical values -/
structure IRM.Sizes (L : R.Lawful) (m : IRM N XR) (P : IRPar) : Prop where
  q1 : Size L m.q1 P.q1
  q2 : Size L m.q2 P.q2
  d1 : Size L m.d1 P.d1
  d2 : Size L m.d2 P.d2
  efficacy : Size L m.efficacy P.e
  dt : Size L m.core.deltaT P.dt

/-- `d` is a one-dimensional array Quantity holding the `n` physical values `F 0, …, F (n-1)` -/
def SizeForcing (L : R.Lawful) (d : DArg N XR) (n : ℕ) (F : ℕ → ℝ) : Prop :=
  ∃ vals u, d = .qty ⟨1, vals⟩ u ∧ vals.length = n ∧ ∀ i (hi : i < vals.length), Size L ⟨vals[i], u⟩ (F i)

end TwoLayer
