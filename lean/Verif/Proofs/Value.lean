import Verif.Proofs.Coherent

/-!
# Physical values of quantities in a lawful registry

`L.quant u v` is the Quantity with unit container `u` whose size, in coherent base units, is the real number `v`.
Arithmetic on quantities is arithmetic on values.
-/

set_option linter.unusedSimpArgs false
set_option linter.unusedSectionVars false

namespace TwoLayer
variable {N : Type} [Fintype N] [DecidableEq N] {R : Registry N XR}

namespace Registry.Lawful
variable (L : R.Lawful)

/-- size of a unit container -/
noncomputable def sc (u : Units N) : ℝ := scaleOf L.scale u
/-- dimension of a unit container -/
def dm (u : Units N) : L.Dim → ℚ := dimOf L.dim u
/-- the Quantity of unit `u` and physical value `v` -/
noncomputable def quant (u : Units N) (v : ℝ) : Qty N XR := ⟨.fin (v / L.sc u), u⟩

theorem sc_pos (u : Units N) : 0 < L.sc u := scaleOf_pos L.scale_pos u
theorem sc_ne (u : Units N) : L.sc u ≠ 0 := (L.sc_pos u).ne'
theorem sc_add (u v : Units N) : L.sc (u + v) = L.sc u * L.sc v := scaleOf_add L.scale_pos u v
theorem sc_sub (u v : Units N) : L.sc (u - v) = L.sc u / L.sc v := scaleOf_sub L.scale_pos u v
theorem sc_neg (u : Units N) : L.sc (-u) = (L.sc u)⁻¹ := scaleOf_neg L.scale_pos u
@[simp] theorem sc_zero : L.sc (0 : Units N) = 1 := scaleOf_zero
theorem sc_half (u : Units N) : L.sc ((1 / 2 : ℚ) • u) = Real.sqrt (L.sc u) := by
  unfold sc
  rw [scaleOf_smul L.scale_pos, Real.sqrt_eq_rpow]; norm_num
theorem sc_smul (q : ℚ) (u : Units N) : L.sc (q • u) = L.sc u ^ (q : ℝ) := scaleOf_smul L.scale_pos q u

@[simp] theorem quant_unit (u : Units N) (v : ℝ) : (L.quant u v).unit = u := rfl
@[simp] theorem quant_mag (u : Units N) (v : ℝ) : (L.quant u v).mag = .fin (v / L.sc u) := rfl

theorem quant_self (q : Qty N XR) (x : ℝ) (h : q.mag = .fin x) : q = L.quant q.unit (x * L.sc q.unit) := by
  ext1
  · simp [h, quant, L.sc_ne]
  · rfl

theorem unitOk_iff (u v : Units N) : UnitOk R u v ↔ L.dm u = L.dm v := L.toDimensional.unitOk_iff u v

theorem compat (u v : Units N) : R.compat u v = true ↔ L.dm u = L.dm v := L.compat_iff u v

theorem magIn_mk (u w : Units N) (v : ℝ) (h : L.dm u = L.dm w) : (L.quant u v).magIn R w = .fin (v / L.sc w) := by
  unfold Qty.magIn
  by_cases huw : u = w
  · subst huw; simp
  · rw [if_neg (by simpa using huw)]
    rw [show (L.quant u v).mag = .fin (v / L.sc u) from rfl, quant_unit, L.conv_fin _ _ _ ((L.compat _ _).mpr h)]
    congr 1
    have := L.sc_ne u
    show v / L.sc u * L.sc u / L.sc w = _
    field_simp

theorem toUnit_mk (u w : Units N) (v : ℝ) (h : L.dm u = L.dm w) : (L.quant u v).toUnit R w = .ok (L.quant w v) := by
  rw [toUnit_ok (q := L.quant u v) ((L.unitOk_iff u w).mpr h), L.magIn_mk u w v h]; rfl

theorem mul_mk (u w : Units N) (x y : ℝ) : (L.quant u x).mul (L.quant w y) = L.quant (u + w) (x * y) := by
  simp [Qty.mul, quant, L.sc_add]
  field_simp

theorem div_mk (u w : Units N) (x y : ℝ) (hy : y ≠ 0) :
    (L.quant u x).div (L.quant w y) = .ok (L.quant (u - w) (x / y)) := by
  have h1 := L.sc_ne u
  have h2 := L.sc_ne w
  have h3 : y / L.sc w ≠ 0 := div_ne_zero hy h2
  simp only [Qty.div, pyDiv, quant, XR.ofNat_eq, Nat.cast_zero, XR.eq_fin, h3, decide_false, Bool.false_and, Bool.false_eq_true,
    if_false, bind, Except.bind, pure, Except.pure, XR.fin_div h3, L.sc_sub]
  congr 3
  field_simp

theorem div_zero_mk (u w : Units N) (x : ℝ) : (L.quant u x).div (L.quant w 0) = .error .zeroDivision := by
  simp [Qty.div, pyDiv, quant, bind, Except.bind]

theorem ndiv_mk (u : Units N) (x y : ℝ) (hy : y ≠ 0) :
    Qty.ndiv (.fin x) (L.quant u y) = .ok (L.quant (-u) (x / y)) := by
  have h1 := L.sc_ne u
  have h3 : y / L.sc u ≠ 0 := div_ne_zero hy h1
  simp only [Qty.ndiv, pyDiv, quant, XR.ofNat_eq, Nat.cast_zero, XR.eq_fin, h3, decide_false, Bool.false_and, Bool.false_eq_true,
    if_false, bind, Except.bind, pure, Except.pure, XR.fin_div h3, L.sc_neg]
  congr 3
  field_simp

theorem nmul_mk (u : Units N) (x y : ℝ) : Qty.nmul (.fin x) (L.quant u y) = L.quant u (x * y) := by
  simp [Qty.nmul, quant, mul_div_assoc]

theorem muln_mk (u : Units N) (x y : ℝ) : Qty.muln (L.quant u y) (.fin x) = L.quant u (y * x) := by
  simp [Qty.muln, quant]
  ring

theorem neg_mk (u : Units N) (y : ℝ) : (L.quant u y).neg = L.quant u (-y) := by
  simp [Qty.neg, quant, neg_div]

theorem add_mk (u w : Units N) (x y : ℝ) (h : L.dm w = L.dm u) :
    (L.quant u x).add R (L.quant w y) = .ok (L.quant u (x + y)) := by
  have hok : (L.quant w y).unit = (L.quant u x).unit ∨ R.compat (L.quant w y).unit (L.quant u x).unit = true :=
    (L.unitOk_iff w u).mpr h
  simp only [Qty.add]
  rw [if_pos hok, quant_unit, L.magIn_mk w u y h]
  simp [quant, add_div]

theorem sub_mk (u w : Units N) (x y : ℝ) (h : L.dm w = L.dm u) :
    (L.quant u x).sub R (L.quant w y) = .ok (L.quant u (x - y)) := by
  have hok : (L.quant w y).unit = (L.quant u x).unit ∨ R.compat (L.quant w y).unit (L.quant u x).unit = true :=
    (L.unitOk_iff w u).mpr h
  simp only [Qty.sub]
  rw [if_pos hok, quant_unit, L.magIn_mk w u y h]
  simp [quant, sub_div]

theorem nsub_mk (u : Units N) (x y : ℝ) (h : L.dm u = 0) :
    Qty.nsub R (.fin x) (L.quant u y) = .ok (L.quant 0 (x - y)) := by
  have h' : L.dm u = L.dm 0 := by rw [h]; simp [dm]
  have hok : (L.quant u y).unit = 0 ∨ R.compat (L.quant u y).unit 0 = true := (L.unitOk_iff u 0).mpr h'
  simp only [Qty.nsub]
  rw [if_pos hok, L.magIn_mk u 0 y h']
  simp [quant]

theorem sq_mk (u : Units N) (x : ℝ) : (L.quant u x).sq = L.quant (u + u) (x * x) := L.mul_mk u u x x

theorem sqrt_mk (u : Units N) (x : ℝ) (h : 0 ≤ x) :
    (L.quant u x).sqrt = .ok (L.quant ((1 / 2 : ℚ) • u) (Real.sqrt x)) := by
  have h1 : 0 ≤ x / L.sc u := div_nonneg h (L.sc_pos u).le
  simp only [Qty.sqrt, quant, XR.ofNat_eq, Nat.cast_zero, XR.lt_fin, not_lt.mpr h1, decide_false, Bool.false_and, Bool.false_eq_true,
    if_false, XR.sqrt_fin h1, L.sc_half]
  rw [Real.sqrt_div h]

theorem ge_mk (u w : Units N) (x y : ℝ) (h : L.dm u = L.dm w) :
    (L.quant u x).ge R (L.quant w y) = .ok (decide (y ≤ x)) := by
  unfold Qty.ge
  by_cases huw : u = w
  · subst huw
    simp only [quant, if_true, XR.le_fin]
    congr 1
    apply decide_eq_decide.mpr
    rw [div_le_div_iff_of_pos_right (L.sc_pos u)]
  · rw [if_neg (by simpa using huw)]
    rw [if_pos (by simpa using (L.compat u w).mpr h)]
    simp only [quant_unit]
    have hr : R.root w = R.root u := L.root_eq _ _ h.symm
    rw [L.magIn_mk w _ y (L.root_dim w).symm, L.magIn_mk u _ x (L.root_dim u).symm, hr]
    simp only [XR.le_fin]
    congr 1
    apply decide_eq_decide.mpr
    rw [div_le_div_iff_of_pos_right (L.sc_pos _)]

@[simp] theorem dm_zero : L.dm (0 : Units N) = 0 := by simp [dm]
@[simp] theorem dm_add (u v : Units N) : L.dm (u + v) = L.dm u + L.dm v := by simp [dm]
@[simp] theorem dm_sub (u v : Units N) : L.dm (u - v) = L.dm u - L.dm v := by simp [dm]
@[simp] theorem dm_neg (u : Units N) : L.dm (-u) = -L.dm u := by simp [dm]
@[simp] theorem dm_smul (q : ℚ) (u : Units N) : L.dm (q • u) = q • L.dm u := by simp [dm]
@[simp] theorem dm_u1 (n : N) : L.dm (u1 n) = L.dim n := by simp [dm]

/-- unit container of `DENSITY_WATER` -/
def rhoU (R : Registry N XR) : Units N := u1 R.kilogram - (3 : ℚ) • u1 R.meter
/-- unit container of `HEAT_CAPACITY_WATER` -/
def cwU (R : Registry N XR) : Units N := u1 R.joule - u1 R.ddegC - u1 R.kilogram
/-- density of water in base units -/
noncomputable def rho : ℝ := 1000 * L.sc (rhoU R)
/-- specific heat of water in base units -/
noncomputable def cw : ℝ := 4181 * L.sc (cwU R)

theorem density_mk : R.densityWater = L.quant (rhoU R) L.rho := by
  simp [Registry.densityWater, quant, rho, rhoU]
  field_simp [L.sc_ne]
theorem heat_mk : R.heatCapacityWater = L.quant (cwU R) L.cw := by
  simp [Registry.heatCapacityWater, quant, cw, cwU]
  field_simp [L.sc_ne]
theorem rho_pos : 0 < L.rho := by unfold rho; have := L.sc_pos (rhoU R); positivity
theorem cw_pos : 0 < L.cw := by unfold cw; have := L.sc_pos (cwU R); positivity

end Registry.Lawful
end TwoLayer
