import Verif.Proofs.RoundingConv
import Verif.Props.Rounding

/-!
# C102: accuracy of `get_two_layer_parameters`

`FR r`, `Rounding.Accurate`, `double`, `IRM.Plain`, `IRPar.C`, `IRPar.D` and `IRPar.ConvNormal` are in `Spec/Rounding.lean`;
`IRPar.l` and `IRPar.h` (feedback parameter and heat exchange coefficient of the equivalent two-layer model) in
`Spec/Equations.lean`.
-/

set_option linter.unusedSimpArgs false
set_option linter.unusedSectionVars false

namespace TwoLayer
section
variable {N : Type} [Fintype N] [DecidableEq N] {r : Rounding} {R : Registry N (FR r)}

/-- **C102**.  Parameters in the units of the model, every operation rounded with relative error at most `u`.  The
conversion succeeds; the feedback parameter and the upper depth have a relative error of a few `u`, and so have the lower
depth and the heat exchange coefficient up to the factor `1 + 2C/(eD)`: digits are lost only if the upper layer holds much
more heat than the lower one. -/
theorem C102_two_layer_parameters {u μ Ω : ℝ} (hr : r.Accurate u μ Ω) (hu : 0 ≤ u) (hu1 : u ≤ 1 / 100) {m : IRM N (FR r)}
    {p : IRPar} (hp : m.Plain R p) (hb : p.Boxes) (hin : p.ConvNormal μ Ω) :
    ∃ t l' du' dl' h', m.getTwoLayerParameters R = .ok t ∧
      t.lambda0.mag = FR.fin l' ∧ t.du.mag = FR.fin du' ∧ t.dl.mag = FR.fin dl' ∧ t.eta.mag = FR.fin h' ∧
      t.lambda0.unit = -R.cwm2 ∧ t.du.unit = R.yr - R.cwm2 - (R.densityWater.unit + R.heatCapacityWater.unit) ∧
      t.dl.unit = t.du.unit ∧ t.eta.unit = -R.cwm2 ∧ t.efficacy = m.efficacy ∧
      |l' - p.l| ≤ 5 * u * p.l ∧
      |du' - p.C / (1000 * 4181)| ≤ 16 * u * (p.C / (1000 * 4181)) ∧
      |dl' - p.D / (1000 * 4181)| ≤ 24 * u * (1 + 2 * p.C / (p.e * p.D)) * (p.D / (1000 * 4181)) ∧
      |h' - p.h| ≤ 35 * u * (1 + 2 * p.C / (p.e * p.D)) * p.h := by
  have hD : 0 < p.D := Geo.invD_pos' hb.q1 hb.q2 hb.d1 hb.d2 hb.ne hb.e
  have he := hb.e
  obtain ⟨X, hX⟩ : ∃ X, X = p.l * (p.d1 * (p.l * p.q1) + p.d2 * (p.l * p.q2)) := ⟨_, rfl⟩
  have hDX : p.D = (X - p.C) / p.e := by rw [hX]; rfl
  have hXe : X = p.C + p.e * p.D := by rw [hDX]; field_simp; ring
  have hs : (X + p.C) / p.e = 2 * p.C / p.e + p.D := by rw [hXe]; field_simp; ring
  have hs' : 2 * p.C / p.e + p.D = (1 + 2 * p.C / (p.e * p.D)) * p.D := by field_simp; ring
  obtain ⟨den, hden⟩ : ∃ den, den = p.d1 * (p.l * p.q2) + p.d2 * (p.l * p.q1) := ⟨_, rfl⟩
  have hh : p.h = p.D / den := by rw [hden]; rfl
  have hs2 : (X + p.C) / p.e / den = p.h * (1 + 2 * p.C / (p.e * p.D)) := by rw [hs, hs', hh]; ring
  obtain ⟨l', du', dl', h', hok, e1, e2, e3, e4⟩ := IRM.fconv_err (R := R) hr hu hu1
    ⟨hp.q1, hp.q2, hp.d1, hp.d2, hp.efficacy⟩ hb.q1 hb.q2 hb.d1 hb.d2 hb.e (l := p.l) (C := p.C) rfl rfl hX hden
    (by
      rw [hs2, hs, show X + p.C = 2 * p.C + p.e * p.D by rw [hXe]; ring, hXe, hden]
      exact hin)
  obtain ⟨g1, g2, g3, g4⟩ := gammas hu hu1
  refine ⟨_, l', du', dl', h', hok, rfl, rfl, rfl, rfl, rfl, ?_, ?_, ?_, hp.efficacy.symm, e1.2.trans ?_, e2.2.trans ?_, ?_, ?_⟩
  · show -R.cwm2 + R.yr - _ = _; rw [neg_add_eq_sub]
  · show -R.cwm2 + R.yr - R.one - _ = -R.cwm2 + R.yr - _; simp [Registry.one]
  · show -R.cwm2 + R.yr - R.one - R.yr = _; simp [Registry.one]
  · exact mul_le_mul_of_nonneg_right g1 e1.B_nonneg
  · exact mul_le_mul_of_nonneg_right g2 e2.B_nonneg
  · rw [hDX]
    refine e3.2.trans ((mul_le_mul_of_nonneg_right g3 e3.B_nonneg).trans (le_of_eq ?_))
    rw [hs, hs', ← hDX]; ring
  · rw [hh, hDX]
    refine e4.2.trans ((mul_le_mul_of_nonneg_right g4 e4.B_nonneg).trans (le_of_eq ?_))
    rw [hs2, ← hDX, hh]; ring

end

set_option maxHeartbeats 2000000 in
theorem IRPar.defaultD_normal : IRPar.defaultD.ConvNormal (2⁻¹ ^ 1022) (10 ^ 20) ∧
    2 * IRPar.defaultD.C / (IRPar.defaultD.e * IRPar.defaultD.D) ≤ 1 / 2 := by
  obtain ⟨⟨a1, a2⟩, ⟨b1, b2⟩, -⟩ := defaultD_bounds
  have hμ := small_normal
  have key : ∀ x : ℝ, 10⁻¹ ^ 10 ≤ x → x ≤ 10 ^ 10 → (2⁻¹ : ℝ) ^ 1022 ≤ x ∧ 2 * x ≤ 10 ^ 20 :=
    fun x a b => ⟨(hμ.trans (by norm_num)).trans a, by linarith⟩
  have hok := defaultD_ok
  have hD : 0 < defaultD.D := Geo.invD_pos hok.q1 hok.q2 hok.d1 hok.d2 hok.e
  have hl : defaultD.l = 1 / (defaultD.q1 + defaultD.q2) := rfl
  have hC : defaultD.C = 9 * 400 / (defaultD.q1 * 400 + defaultD.q2 * 9) := rfl
  have hDX : defaultD.D = (defaultD.l * (9 * (defaultD.l * defaultD.q1) + 400 * (defaultD.l * defaultD.q2)) - defaultD.C) / 1 := rfl
  have hh : defaultD.h = defaultD.D / (9 * (defaultD.l * defaultD.q2) + 400 * (defaultD.l * defaultD.q1)) := rfl
  have e1 : defaultD.d1 = 9 := rfl
  have e2 : defaultD.d2 = 400 := rfl
  have e3 : defaultD.e = 1 := rfl
  unfold ConvNormal
  rw [e1, e2, e3]
  generalize defaultD.q1 = q1 at *
  generalize defaultD.q2 = q2 at *
  generalize defaultD.l = l at *
  generalize defaultD.C = C at *
  generalize defaultD.D = D at *
  generalize defaultD.h = h at *
  norm_num only at a1 a2 b1 b2
  have hs : 0 < q1 + q2 := by linarith
  have l1 : 1.4 ≤ l := by rw [hl, le_div_iff₀ hs]; norm_num; linarith
  have l2 : l ≤ 1.45 := by rw [hl, div_le_iff₀ hs]; norm_num; linarith
  have p1 : 0.4 ≤ l * q1 := by norm_num at *; nlinarith
  have p2 : l * q1 ≤ 0.45 := by norm_num at *; nlinarith
  have p3 : 0.55 ≤ l * q2 := by norm_num at *; nlinarith
  have p4 : l * q2 ≤ 0.6 := by norm_num at *; nlinarith
  have c0 : 0 < q1 * 400 + q2 * 9 := by linarith
  have c1 : 25 ≤ C := by rw [hC, le_div_iff₀ c0]; linarith
  have c2 : C ≤ 30 := by rw [hC, div_le_iff₀ c0]; linarith
  have x1 : 220 ≤ 9 * (l * q1) + 400 * (l * q2) := by norm_num at *; linarith
  have x2 : 9 * (l * q1) + 400 * (l * q2) ≤ 250 := by norm_num at *; linarith
  have X1 : 308 ≤ l * (9 * (l * q1) + 400 * (l * q2)) := by norm_num at *; nlinarith
  have X2 : l * (9 * (l * q1) + 400 * (l * q2)) ≤ 370 := by norm_num at *; nlinarith
  have D1 : 270 ≤ D := by rw [hDX]; linarith
  have D2 : D ≤ 350 := by rw [hDX]; linarith
  have n1 : 160 ≤ 9 * (l * q2) + 400 * (l * q1) := by norm_num at *; linarith
  have n2 : 9 * (l * q2) + 400 * (l * q1) ≤ 200 := by norm_num at *; linarith
  have h1 : 1 ≤ h := by rw [hh, le_div_iff₀ (by linarith)]; linarith
  have h2 : h ≤ 3 := by rw [hh, div_le_iff₀ (by linarith)]; linarith
  have r1 : 2 * C / (1 * D) ≤ 1 / 2 := by rw [div_le_iff₀ (by linarith)]; linarith
  have r0 : 0 ≤ 2 * C / (1 * D) := by apply div_nonneg <;> linarith
  have r2 : 1 ≤ h * (1 + 2 * C / (1 * D)) := by nlinarith
  have r3 : h * (1 + 2 * C / (1 * D)) ≤ 5 := by nlinarith
  refine ⟨?_, r1⟩
  simp only [List.forall_mem_cons, List.not_mem_nil, IsEmpty.forall_iff, forall_const, and_true]
  refine ⟨?_, ?_, ?_, ?_, ?_, ?_, ?_, ?_, ?_, ?_, ?_, ?_, ?_, ?_, ?_, ?_, ?_, ?_, ?_, ?_, ?_, ?_, ?_, ?_, ?_⟩ <;>
    apply key <;> norm_num at * <;> linarith

theorem IRM.default_plain {m : IRM U0 (FR double)} (hm : IRM.init U0.regD (IRM.defaultArgs U0.regD) = .ok m) :
    m.Plain U0.regD IRPar.defaultD := by
  obtain ⟨m', hm', hph, hpl⟩ := U0.regD_default_ir
  rw [hm'] at hm; cases hm
  have num : ∀ {q : Qty U0 (FR double)} {w : Units U0} {x : ℝ}, IsFNum U0.regD q w x → q.unit = w → q = ⟨FR.fin x, w⟩ := by
    intro q w x h hw
    have := h.magIn
    rw [Qty.magIn, if_pos hw] at this
    cases q; simp_all
  exact ⟨num hph.q1 hpl.q1, num hph.q2 hpl.q2, num hph.d1 hpl.d1, num hph.d2 hpl.d2, hpl.efficacy⟩

/-- **C102** (`ImpulseResponseModel()` in double precision).  The two-layer parameters are computed to within a relative
error of 10⁻¹⁴. -/
theorem C102_default {m : IRM U0 (FR double)} (hm : IRM.init U0.regD (IRM.defaultArgs U0.regD) = .ok m) :
    ∃ t l' du' dl' h', m.getTwoLayerParameters U0.regD = .ok t ∧
      t.lambda0.mag = FR.fin l' ∧ t.du.mag = FR.fin du' ∧ t.dl.mag = FR.fin dl' ∧ t.eta.mag = FR.fin h' ∧
      |l' - IRPar.defaultD.l| ≤ 10⁻¹ ^ 14 * IRPar.defaultD.l ∧
      |du' - IRPar.defaultD.C / (1000 * 4181)| ≤ 10⁻¹ ^ 14 * (IRPar.defaultD.C / (1000 * 4181)) ∧
      |dl' - IRPar.defaultD.D / (1000 * 4181)| ≤ 10⁻¹ ^ 14 * (IRPar.defaultD.D / (1000 * 4181)) ∧
      |h' - IRPar.defaultD.h| ≤ 10⁻¹ ^ 14 * IRPar.defaultD.h := by
  have hp := IRM.default_plain hm
  obtain ⟨hin, hr⟩ := IRPar.defaultD_normal
  have hok := IRPar.defaultD_ok
  have hD : 0 < IRPar.defaultD.D := Geo.invD_pos hok.q1 hok.q2 hok.d1 hok.d2 hok.e
  have hC : 0 < IRPar.defaultD.C := Geo.invC_pos hok.q1 hok.q2 hok.d1 hok.d2
  have hh : 0 < IRPar.defaultD.h := Geo.invH_pos hok.q1 hok.q2 hok.d1 hok.d2 hok.e
  have hl : 0 < IRPar.defaultD.l := Geo.invL_pos hok.q1 hok.q2
  obtain ⟨t, l', du', dl', h', a, b, c, d, e, -, -, -, -, -, f1, f2, f3, f4⟩ :=
    C102_two_layer_parameters (double_accurate (10 ^ 20)) (by positivity) (by norm_num) hp hok.boxes hin
  refine ⟨t, l', du', dl', h', a, b, c, d, e, f1.trans ?_, f2.trans ?_, f3.trans ?_, f4.trans ?_⟩
  · exact mul_le_mul_of_nonneg_right (by norm_num) hl.le
  · exact mul_le_mul_of_nonneg_right (by norm_num) (by positivity)
  · refine mul_le_mul_of_nonneg_right ?_ (by positivity)
    calc _ ≤ 24 * 2⁻¹ ^ 53 * (1 + 1 / 2 : ℝ) := by gcongr
      _ ≤ _ := by norm_num
  · refine mul_le_mul_of_nonneg_right ?_ hh.le
    calc _ ≤ 35 * 2⁻¹ ^ 53 * (1 + 1 / 2 : ℝ) := by gcongr
      _ ≤ _ := by norm_num

/-- the hypotheses of `C102_two_layer_parameters` are met by `ImpulseResponseModel()` -/
example : ∃ m, IRM.init U0.regD (IRM.defaultArgs U0.regD) = .ok m := ⟨_, U0.regD_default_ir.choose_spec.1⟩

end TwoLayer
