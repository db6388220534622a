import Verif.Proofs.Agree
import Verif.Spec.Observe

/-!
# C35–C42: the two models are the same system

`m` is a two-layer object whose public parameters, as real numbers in SI, are `p` (`TLM.Phys`), or an impulse
response object with public parameters `p` (`IRM.Phys`).  Conversions are the public methods
`get_impulse_response_parameters` and `get_two_layer_parameters`; `IsNum R q u x` says that `q.to(u)` has magnitude
`x`.  The differential equations are those of `Verif/Spec/Ode.lean` and `Verif/Spec/Convert.lean`.
-/

set_option linter.unusedSimpArgs false
set_option linter.unusedSectionVars false

namespace TwoLayer
variable {N : Type} [Fintype N] [DecidableEq N] {R : Registry N XR}

/-! ## C35 Geoffroy relations -/

/-- The helper parameters computed from positive parameters satisfy the relations of Geoffroy et al. (2013). -/
theorem C35_helper (L : R.Lawful) {m : TLM N XR} {p : TLPar} (hm : m.Phys R p) (hp : p.Pos) :
    ∃ g, geoffroy R m.du m.dl m.lambda0 m.efficacy m.eta = .ok g ∧
    ∃ t1 t2 f1 f2 a1 a2 : ℝ, IsNum R g.C R.jm2c p.C ∧ IsNum R g.CD R.jm2c p.D ∧
      IsNum R g.tau1 R.s t1 ∧ IsNum R g.tau2 R.s t2 ∧ IsNum R g.phi1 R.one f1 ∧ IsNum R g.phi2 R.one f2 ∧
      IsNum R g.a1 R.one a1 ∧ IsNum R g.a2 R.one a2 ∧
      0 < t1 ∧ t1 < t2 ∧ f1 < 0 ∧ 0 < f2 ∧ 0 < a1 ∧ 0 < a2 ∧
      a1 + a2 = 1 ∧ a1 / t1 + a2 / t2 = p.l / p.C ∧ a1 * t1 + a2 * t2 = (p.C + p.e * p.D) / p.l ∧
      a1 * t2 + a2 * t1 = p.D / p.h ∧ t1 * t2 = p.C * p.D / (p.l * p.h) ∧
      p.C + f1 * p.e * p.D = p.l * t1 ∧ p.C + f2 * p.e * p.D = p.l * t2 ∧
      f1 * a1 + f2 * a2 = 1 ∧ f1 * f2 = -(p.C / (p.e * p.D)) ∧ f1 * a1 / t1 + f2 * a2 / t2 = 0 := by
  obtain ⟨g, hg, hG, -⟩ := geoffroy_phys L hp hm.du hm.dl hm.lambda0 hm.efficacy hm.eta
  have hC := hp.C; have hD := hp.D; have hl := hp.l; have he := hp.e; have hh := hp.h
  have t1 := hp.tau1_pos; have t2 := hp.tau2_pos
  have hq := hp.q_sum
  have hpq := hp.phi_q_sum
  have e1 : Geo.a1 p.C p.D p.l p.e p.h = p.l * p.q1 := Geo.a1_eq hC hD hl he hh
  have e2 : Geo.a2 p.C p.D p.l p.e p.h = p.l * p.q2 := Geo.a2_eq hC hD hl he hh
  have r1 : p.q1 / p.tau1 + p.q2 / p.tau2 = 1 / p.C := Geo.q_over_tau hC hD hl he hh
  have r2 : p.phi1 * p.q1 / p.tau1 + p.phi2 * p.q2 / p.tau2 = 0 := Geo.phi_q_over_tau hC hD hl he hh
  have r3 : p.q1 * p.tau1 + p.q2 * p.tau2 = (p.C + p.e * p.D) / p.l ^ 2 := Geo.q_tau hC hD hl he hh
  have r4 : p.q1 * p.tau2 + p.q2 * p.tau1 = p.D / (p.l * p.h) := Geo.q_tau_cross hC hD hl he hh
  refine ⟨g, hg, p.tau1, p.tau2, p.phi1, p.phi2, p.l * p.q1, p.l * p.q2, hG.C, hG.CD, hG.tau1, hG.tau2, hG.phi1,
    hG.phi2, e1 ▸ hG.a1, e2 ▸ hG.a2, t1, hp.tau_lt, Geo.phi1_neg hC hD hl he hh, Geo.phi2_pos hC hD hl he hh,
    mul_pos hl hp.q1_pos, mul_pos hl hp.q2_pos, ?_, ?_, ?_, ?_, Geo.tau1_mul_tau2 hC hD hl he hh,
    Geo.tau1_phi1 hC hD hl he hh, Geo.tau2_phi2 hC hD hl he hh, ?_, Geo.phi1_mul_phi2 hC hD hl he hh, ?_⟩
  · rw [← mul_add, hq]; field_simp
  · rw [mul_div_assoc, mul_div_assoc, ← mul_add, r1]; field_simp
  · rw [mul_assoc, mul_assoc, ← mul_add, r3]; field_simp
  · rw [mul_assoc, mul_assoc, ← mul_add, r4]; field_simp
  · rw [show p.phi1 * (p.l * p.q1) + p.phi2 * (p.l * p.q2) = p.l * (p.phi1 * p.q1 + p.phi2 * p.q2) by ring, hpq]
    field_simp
  · rw [show p.phi1 * (p.l * p.q1) / p.tau1 + p.phi2 * (p.l * p.q2) / p.tau2 =
      p.l * (p.phi1 * p.q1 / p.tau1 + p.phi2 * p.q2 / p.tau2) by ring, r2, mul_zero]

/-- The same relations read off the public conversion: equilibrium warming, initial warming rate and the two
timescales. -/
theorem C35_conversion (L : R.Lawful) {m : TLM N XR} {p : TLPar} (hm : m.Phys R p) (hp : p.Pos) (ha : p.a = 0) :
    ∃ r, m.getImpulseResponseParameters R = .ok r ∧
    ∃ q1 q2 d1 d2 : ℝ, IsNum R r.q1 R.cwm2 q1 ∧ IsNum R r.q2 R.cwm2 q2 ∧ IsNum R r.d1 R.s d1 ∧ IsNum R r.d2 R.s d2 ∧
      q1 + q2 = 1 / p.l ∧ q1 / d1 + q2 / d2 = 1 / p.C ∧ q1 * d1 + q2 * d2 = (p.C + p.e * p.D) / p.l ^ 2 ∧
      q1 * d2 + q2 * d1 = p.D / (p.l * p.h) ∧ d1 * d2 = p.C * p.D / (p.l * p.h) ∧
      1 / d1 + 1 / d2 = (p.l + p.e * p.h) / p.C + p.h / p.D := by
  obtain ⟨r, hr, hph, -, -, -, s1, s2⟩ := TLM.getIR_phys L hm hp ha
  have hC := hp.C; have hD := hp.D; have hl := hp.l; have he := hp.e; have hh := hp.h
  exact ⟨r, hr, p.q1, p.q2, p.tau1, p.tau2, hph.q1, hph.q2, s1, s2, hp.q_sum, Geo.q_over_tau hC hD hl he hh,
    Geo.q_tau hC hD hl he hh, Geo.q_tau_cross hC hD hl he hh, Geo.tau1_mul_tau2 hC hD hl he hh, hp.rates⟩

/-- the default parameters are positive with `a = 0` -/
theorem TLPar.default_pos : TLPar.default.Pos := by constructor <;> norm_num [TLPar.default]

example : ∃ (m : TLM U0 XR), TLM.Reachable U0.reg m ∧ m.Phys U0.reg TLPar.default ∧ TLPar.default.Pos ∧
    TLPar.default.a = 0 := by
  obtain ⟨m, h, hp⟩ := TLM.default_exists U0.lawful
  exact ⟨m, ⟨_, m, [], h, rfl⟩, hp, TLPar.default_pos, rfl⟩

/-! ## C36 Two-layer to impulse response -/

section
variable (L : R.Lawful)
include L

/-- constructing an impulse response object from physical quantities -/
theorem IRM.init_phys {q1 q2 d1 d2 ef dt : Qty N XR} {p : IRPar} (hd : p.d1 < p.d2)
    (h1 : IsNum R q1 R.cwm2 p.q1) (h2 : IsNum R q2 R.cwm2 p.q2) (h3 : IsNum R d1 R.yr p.d1)
    (h4 : IsNum R d2 R.yr p.d2) (h5 : IsNum R ef R.one p.e) (h6 : IsNum R dt R.yr p.dt) :
    IRM.init R ⟨.qty q1, .qty q2, .qty d1, .qty d2, .qty ef, .qty dt⟩ = .ok (IRM.built R q1 q2 d1 d2 ef dt) ∧
    (IRM.built R q1 q2 d1 d2 ef dt).Phys R p := by
  refine ⟨?_, ⟨h1, h2, h3, h4, h5, h6⟩⟩
  obtain ⟨a3, b3⟩ := L.isNum_iff.mp h3
  obtain ⟨a4, b4⟩ := L.isNum_iff.mp h4
  have hg := L.ge_mk d1.unit d2.unit (p.d1 * L.sc R.yr) (p.d2 * L.sc R.yr) (b3.trans b4.symm)
  rw [← a3, ← a4] at hg
  have : ¬ p.d2 * L.sc R.yr ≤ p.d1 * L.sc R.yr := not_le.mpr (mul_lt_mul_of_pos_right hd (L.sc_pos _))
  rw [decide_eq_false this] at hg
  rw [IRM.init_good h1.unitOk h2.unitOk h3.unitOk h4.unitOk h5.unitOk h6.unitOk, hg]

/-- constructing a two-layer object from physical quantities -/
theorem TLM.init_phys {du dl l a ef et dt : Qty N XR} {p : TLPar} (h1 : IsNum R du R.m (p.C / (1000 * 4181)))
    (h2 : IsNum R dl R.m (p.D / (1000 * 4181))) (h3 : IsNum R l R.wm2c p.l) (h4 : IsNum R a R.wm2cc p.a)
    (h5 : IsNum R ef R.one p.e) (h6 : IsNum R et R.wm2c p.h) (h7 : IsNum R dt R.s p.dt) :
    TLM.init R ⟨.qty du, .qty dl, .qty l, .qty a, .qty ef, .qty et, .qty dt⟩ =
      .ok (TLM.built R du dl l a ef et dt) ∧ (TLM.built R du dl l a ef et dt).Phys R p :=
  ⟨TLM.init_good L.toDimensional h1.unitOk h2.unitOk h3.unitOk h4.unitOk h5.unitOk h6.unitOk h7.unitOk,
    ⟨h1, h2, h3, h4, h5, h6, h7⟩⟩

/-- `get_impulse_response_parameters` succeeds for positive parameters with `a = 0`, returns the equivalent
parameters, all positive with `d1 < d2`, and `ImpulseResponseModel(**result, delta_t=dt)` accepts them. -/
theorem C36_usable {m : TLM N XR} {p : TLPar} (hm : m.Phys R p) (hp : p.Pos) (ha : p.a = 0) :
    ∃ r q1 q2 d1 d2, m.getImpulseResponseParameters R = .ok r ∧
      IsNum R r.q1 R.cwm2 q1 ∧ IsNum R r.q2 R.cwm2 q2 ∧ IsNum R r.d1 R.yr d1 ∧ IsNum R r.d2 R.yr d2 ∧
      0 < q1 ∧ 0 < q2 ∧ 0 < d1 ∧ d1 < d2 ∧ r.efficacy = m.efficacy ∧
      ∀ dt, Convertible R dt R.yr → ∃ m2, IRM.init R (r.args (.qty dt)) = .ok m2 ∧
        m2.pub = ⟨r.q1, r.q2, r.d1, r.d2, r.efficacy, dt⟩ := by
  obtain ⟨r, hr, hph, -, -, -, -⟩ := TLM.getIR_phys L hm hp ha
  have hok := hp.toIR_ok
  have heff : r.efficacy = m.efficacy := by
    unfold TLM.getImpulseResponseParameters at hr
    simp only [bind, Except.bind, pure, Except.pure] at hr
    split at hr
    · cases hr
    · repeat (split at hr; · cases hr)
      injection hr with hr; rw [← hr]
  refine ⟨r, p.toIR.q1, p.toIR.q2, p.toIR.d1, p.toIR.d2, hr, hph.q1, hph.q2, hph.d1, hph.d2, hok.q1, hok.q2, hok.d1,
    hok.d2, heff, fun dt hdt => ?_⟩
  obtain ⟨dt', hdt'⟩ := hdt
  have hu : UnitOk R dt.unit R.yr := by
    unfold Qty.toUnit at hdt'
    split at hdt'
    · next h => exact h
    · cases hdt'
  obtain ⟨a3, b3⟩ := L.isNum_iff.mp hph.d1
  obtain ⟨a4, b4⟩ := L.isNum_iff.mp hph.d2
  have hg := L.ge_mk r.d1.unit r.d2.unit (p.toIR.d1 * L.sc R.yr) (p.toIR.d2 * L.sc R.yr) (b3.trans b4.symm)
  rw [← a3, ← a4] at hg
  rw [decide_eq_false (not_le.mpr (mul_lt_mul_of_pos_right hok.d2 (L.sc_pos _)))] at hg
  refine ⟨IRM.built R r.q1 r.q2 r.d1 r.d2 r.efficacy dt, ?_, rfl⟩
  unfold TLM.IRParams.args
  rw [IRM.init_good hph.q1.unitOk hph.q2.unitOk hph.d1.unitOk hph.d2.unitOk hph.efficacy.unitOk hu, hg]

/-- The values are those of the literature. -/
theorem C36_values {m : TLM N XR} {p : TLPar} (hm : m.Phys R p) (hp : p.Pos) (ha : p.a = 0) :
    ∃ r, m.getImpulseResponseParameters R = .ok r ∧
      IsNum R r.d1 R.s (Geo.tau1 p.C p.D p.l p.e p.h) ∧ IsNum R r.d2 R.s (Geo.tau2 p.C p.D p.l p.e p.h) ∧
      IsNum R r.q1 R.cwm2 (Geo.a1 p.C p.D p.l p.e p.h / p.l) ∧
      IsNum R r.q2 R.cwm2 (Geo.a2 p.C p.D p.l p.e p.h / p.l) ∧ IsNum R r.efficacy R.one p.e := by
  obtain ⟨r, hr, hph, -, -, -, s1, s2⟩ := TLM.getIR_phys L hm hp ha
  have hC := hp.C; have hD := hp.D; have hl := hp.l; have he := hp.e; have hh := hp.h
  refine ⟨r, hr, s1, s2, ?_, ?_, hph.efficacy⟩
  · rw [Geo.a1_eq hC hD hl he hh, mul_div_cancel_left₀ _ hl.ne']; exact hph.q1
  · rw [Geo.a2_eq hC hD hl he hh, mul_div_cancel_left₀ _ hl.ne']; exact hph.q2

/-- Without heat exchange between the layers there is only one timescale and the conversion raises
ZeroDivisionError. -/
theorem C36_eta_zero {m : TLM N XR} {p : TLPar} (hm : m.Phys R p) (hC : p.C ≠ 0) (hD : p.D ≠ 0) (hh : p.h = 0)
    (ha : p.a = 0) : m.getImpulseResponseParameters R = .error .zeroDivision := by
  obtain ⟨a1, b1⟩ := L.isNum_iff.mp hm.du
  obtain ⟨a2, b2⟩ := L.isNum_iff.mp hm.dl
  obtain ⟨a3, b3⟩ := L.isNum_iff.mp hm.lambda0
  obtain ⟨a4, b4⟩ := L.isNum_iff.mp hm.efficacy
  obtain ⟨a5, b5⟩ := L.isNum_iff.mp hm.eta
  have hdo : L.dm R.one = 0 := L.dm_zero
  have hj := L.sc_ne R.jm2c
  have hc1 : p.C / (1000 * 4181) * L.sc R.m * L.cw * L.rho ≠ 0 := by rw [L.cap_eq]; exact mul_ne_zero hj hC
  have hc2 : p.D / (1000 * 4181) * L.sc R.m * L.cw * L.rho ≠ 0 := by rw [L.cap_eq]; exact mul_ne_zero hj hD
  unfold TLM.getImpulseResponseParameters
  rw [(isNum_zero_mag L hm.a).mpr ha]
  simp only [XR.ofNat_eq, Nat.cast_zero, XR.eq_fin, decide_true, Bool.not_true, Bool.false_eq_true, if_false]
  unfold geoffroy
  rw [L.heat_mk, L.density_mk, a1, a2, a3, a4, a5, hh, zero_mul]
  simp only [L.mul_mk, L.nmul_mk, XR.ofNat_eq, mul_zero]
  have hu : L.dm (m.eta.unit - (m.dl.unit + Registry.Lawful.cwU R + Registry.Lawful.rhoU R)) =
      L.dm (m.lambda0.unit - (m.du.unit + Registry.Lawful.cwU R + Registry.Lawful.rhoU R)) := by
    simp only [L.dm_sub, L.dm_add, b1, b2, b3, b5]
  have hu2 : L.dm (m.lambda0.unit + m.eta.unit - (m.du.unit + Registry.Lawful.cwU R + Registry.Lawful.rhoU R +
      (m.dl.unit + Registry.Lawful.cwU R + Registry.Lawful.rhoU R))) =
      L.dm (m.lambda0.unit - (m.du.unit + Registry.Lawful.cwU R + Registry.Lawful.rhoU R) +
        (m.lambda0.unit - (m.du.unit + Registry.Lawful.cwU R + Registry.Lawful.rhoU R))) := by
    simp only [L.dm_sub, L.dm_add, b1, b2, b3, b5]; abel
  rw [L.add_mk _ _ _ _ (by simp only [L.dm_add, b3, b4, b5, hdo, zero_add]), ok_bind, L.div_mk _ _ _ _ hc1, ok_bind,
    L.div_mk _ _ _ _ hc2, ok_bind, L.add_mk _ _ _ _ hu, ok_bind, L.sub_mk _ _ _ _ hu, ok_bind,
    L.div_mk _ _ _ _ (mul_ne_zero hc1 hc2), ok_bind]
  simp only [L.sq_mk]
  rw [L.sub_mk _ _ _ _ hu2, ok_bind, L.div_zero_mk]
  rfl
end

/-- For `a` not equal to zero (NaN included) the conversion raises ValueError, in any arithmetic. -/
theorem C36_refuses {α : Type} [Arith α] {R : Registry N α} {m : TLM N α} (ha : Arith.eq m.a.mag (Arith.ofNat 0) = false) :
    ∃ msg, m.getImpulseResponseParameters R = .error (.value msg) := by
  unfold TLM.getImpulseResponseParameters
  rw [ha]
  exact ⟨_, rfl⟩

/-- Physical reading of the refusal: it depends on the value of `a`, not on its unit. -/
theorem C36_refuses_value (L : R.Lawful) {m : TLM N XR} {p : TLPar} (hm : m.Phys R p) (ha : p.a ≠ 0) :
    ∃ msg, m.getImpulseResponseParameters R = .error (.value msg) := by
  apply C36_refuses
  obtain ⟨a1, -⟩ := L.isNum_iff.mp hm.a
  rw [a1]
  have : p.a * L.sc R.wm2cc / L.sc m.a.unit ≠ 0 := div_ne_zero (mul_ne_zero ha (L.sc_ne _)) (L.sc_ne _)
  simp [this]

/-! ## C37 Impulse response to two-layer -/

section
variable (L : R.Lawful)
include L

/-- `get_two_layer_parameters` succeeds for positive coefficients with different timescales, returns positive parameters, and
`TwoLayerModel(**result)` (default `a` and `delta_t`) accepts them. -/
theorem C37_usable {m : IRM N XR} {p : IRPar} (hm : m.Phys R p) (hp : p.Boxes) :
    ∃ r C D l h, m.getTwoLayerParameters R = .ok r ∧ IsNum R r.du R.m (C / (1000 * 4181)) ∧
      IsNum R r.dl R.m (D / (1000 * 4181)) ∧ IsNum R r.lambda0 R.wm2c l ∧ IsNum R r.eta R.wm2c h ∧
      r.efficacy = m.efficacy ∧ 0 < C ∧ 0 < D ∧ 0 < l ∧ 0 < h ∧
      ∃ m2, TLM.init R (r.args (TLM.defaultArgs R).a (TLM.defaultArgs R).deltaT) = .ok m2 ∧
        m2.du = r.du ∧ m2.dl = r.dl ∧ m2.lambda0 = r.lambda0 ∧ m2.efficacy = r.efficacy ∧ m2.eta = r.eta := by
  obtain ⟨r, hr, hph⟩ := IRM.getTL_boxes L hm hp
  have hpos : ({ p with dt := 1 } : IRPar).toTL.Pos := IRPar.Boxes.toTL_pos ⟨hp.q1, hp.q2, hp.d1, hp.d2, hp.ne, hp.e⟩ one_pos
  have heff : r.efficacy = m.efficacy := by
    unfold IRM.getTwoLayerParameters at hr
    simp only [bind, Except.bind, pure, Except.pure] at hr
    repeat (split at hr; · cases hr)
    injection hr with hr; rw [← hr]
  refine ⟨r, p.toTL.C, p.toTL.D, p.toTL.l, p.toTL.h, hr, hph.du, hph.dl, hph.lambda0, hph.eta, heff, hpos.C, hpos.D,
    hpos.l, hpos.h, ?_⟩
  exact ⟨_, TLM.init_good L.toDimensional hph.du.unitOk hph.dl.unitOk hph.lambda0.unitOk (Or.inl rfl)
    hph.efficacy.unitOk hph.eta.unitOk (Or.inl rfl), rfl, rfl, rfl, rfl, rfl⟩

/-- The values: feedback `1/(q1+q2)`, upper heat capacity `d1 d2/(q1 d2 + q2 d1)` and so on, in SI. -/
theorem C37_values {m : IRM N XR} {p : IRPar} (hm : m.Phys R p) (hp : p.Boxes) :
    ∃ r C D h, m.getTwoLayerParameters R = .ok r ∧ IsNum R r.du R.m (C / (1000 * 4181)) ∧
      IsNum R r.dl R.m (D / (1000 * 4181)) ∧ IsNum R r.lambda0 R.wm2c (1 / (p.q1 + p.q2)) ∧ IsNum R r.eta R.wm2c h ∧
      C * (p.q1 / p.d1 + p.q2 / p.d2) = secPerYr ∧
      C + p.e * D = (p.q1 * p.d1 + p.q2 * p.d2) * secPerYr / (p.q1 + p.q2) ^ 2 ∧
      D / h = (p.q1 * p.d2 + p.q2 * p.d1) * secPerYr / (p.q1 + p.q2) := by
  obtain ⟨r, hr, hph⟩ := IRM.getTL_boxes L hm hp
  have h1 := hp.q1; have h2 := hp.q2; have h3 := hp.d1; have h4 := hp.d2; have h5 := hp.e
  have hS := secPerYr_pos
  have hD := (IRPar.Boxes.toTL_pos (p := { p with dt := 1 }) ⟨hp.q1, hp.q2, hp.d1, hp.d2, hp.ne, hp.e⟩ one_pos).D
  refine ⟨r, p.toTL.C, p.toTL.D, p.toTL.h, hr, hph.du, hph.dl, hph.lambda0, hph.eta, ?_, ?_, ?_⟩
  · simp only [IRPar.toTL, Geo.invC]; field_simp
  · simp only [IRPar.toTL, Geo.invD, Geo.invL]; field_simp; ring
  · have : p.toTL.h = p.toTL.D / (p.d1 * secPerYr * (Geo.invL p.q1 p.q2 * p.q2) +
      p.d2 * secPerYr * (Geo.invL p.q1 p.q2 * p.q1)) := rfl
    rw [this]
    have hD' : p.toTL.D ≠ 0 := hD.ne'
    have hne : p.d1 * secPerYr * (Geo.invL p.q1 p.q2 * p.q2) + p.d2 * secPerYr * (Geo.invL p.q1 p.q2 * p.q1) ≠ 0 := by
      unfold Geo.invL; positivity
    rw [div_div_eq_mul_div, mul_div_assoc, mul_comm, mul_div_assoc]
    rw [show ∀ x y : ℝ, x / p.toTL.D * p.toTL.D = x from fun x _ => div_mul_cancel₀ x hD']
    · unfold Geo.invL; field_simp; ring
    · exact 0

example : ∃ m, IRM.Reachable U0.reg m ∧ m.Phys U0.reg IRPar.default ∧ IRPar.default.Boxes := by
  obtain ⟨m, h, hp, -⟩ := IRM.default_exists U0.lawful
  exact ⟨m, ⟨_, m, [], h, rfl⟩, hp, IRPar.default_ok.boxes⟩

/-! ## C38, C39 Round trips -/

/-- impulse response → two-layer object → impulse response gives physically the same parameters, whatever units they
are in and whatever time step the intermediate object gets. -/
theorem C38_round_trip {m : IRM N XR} {p : IRPar} (hm : m.Phys R p) (hp : p.Ok) {dt : Qty N XR}
    (hdt : Convertible R dt R.s) :
    ∃ r m2 r2, m.getTwoLayerParameters R = .ok r ∧
      TLM.init R (r.args (TLM.defaultArgs R).a (.qty dt)) = .ok m2 ∧
      m2.getImpulseResponseParameters R = .ok r2 ∧ r2.Phys R p := by
  obtain ⟨r, hr, hph⟩ := IRM.getTL_phys L hm hp
  obtain ⟨dt', hdt'⟩ := hdt
  have hu : UnitOk R dt.unit R.s := by
    unfold Qty.toUnit at hdt'
    split at hdt'
    · next h => exact h
    · cases hdt'
  have hinit := TLM.init_good L.toDimensional hph.du.unitOk hph.dl.unitOk hph.lambda0.unitOk
    (a := ⟨Arith.dec 0 1, R.wm2cc⟩) (Or.inl rfl) hph.efficacy.unitOk hph.eta.unitOk hu
  have hpos : ({ p with dt := 1 } : IRPar).toTL.Pos := IRPar.Ok.toTL_pos ⟨hp.q1, hp.q2, hp.d1, hp.d2, hp.e⟩ one_pos
  obtain ⟨g, hg, hG, dphi, q1, q2, e1, e2, e3, i1, i2, -, -⟩ := geoffroy_phys L hpos hph.du hph.dl hph.lambda0
    hph.efficacy hph.eta
  refine ⟨r, _, ⟨g.tau1, g.tau2, q1, q2, r.efficacy⟩, hr, hinit, ?_, ?_⟩
  · unfold TLM.getImpulseResponseParameters
    have : (TLM.built R r.du r.dl r.lambda0 ⟨Arith.dec 0 1, R.wm2cc⟩ r.efficacy r.eta dt).a.mag = .fin 0 := by
      simp [TLM.built]
    rw [this]
    simp only [XR.ofNat_eq, Nat.cast_zero, XR.eq_fin, decide_true, Bool.not_true, Bool.false_eq_true, if_false]
    simp only [TLM.built]
    rw [hg, ok_bind, e1, ok_bind, e2, ok_bind, e3, ok_bind]
    rfl
  · have hrt : ({ p with dt := 1 } : IRPar).toTL.toIR = { p with dt := 1 } :=
      IRPar.Ok.round_trip ⟨hp.q1, hp.q2, hp.d1, hp.d2, hp.e⟩
    have a1 := congrArg IRPar.q1 hrt
    have a2 := congrArg IRPar.q2 hrt
    have a3 := congrArg IRPar.d1 hrt
    have a4 := congrArg IRPar.d2 hrt
    have s1 := isNum_yr_of_s L hG.tau1
    have s2 := isNum_yr_of_s L hG.tau2
    refine ⟨?_, ?_, ?_, ?_, hph.efficacy⟩
    · rw [show p.q1 = _ from a1.symm]; exact i1
    · rw [show p.q2 = _ from a2.symm]; exact i2
    · rw [show p.d1 = _ from a3.symm]; exact s1
    · rw [show p.d2 = _ from a4.symm]; exact s2

/-- two-layer (`a = 0`) → impulse response object → two-layer gives physically the same parameters. -/
theorem C39_round_trip {m : TLM N XR} {p : TLPar} (hm : m.Phys R p) (hp : p.Pos) (ha : p.a = 0) {dt : Qty N XR}
    (hdt : Convertible R dt R.yr) :
    ∃ r m2 r2, m.getImpulseResponseParameters R = .ok r ∧ IRM.init R (r.args (.qty dt)) = .ok m2 ∧
      m2.getTwoLayerParameters R = .ok r2 ∧ r2.Phys R p := by
  obtain ⟨r, hr, hph, -⟩ := TLM.getIR_phys L hm hp ha
  obtain ⟨r', q1, q2, d1, d2, hr', -, -, -, -, -, -, -, -, -, hacc⟩ := C36_usable L hm hp ha
  rw [hr] at hr'; cases hr'
  obtain ⟨m2, hi, hpub⟩ := hacc dt hdt
  simp only [IRM.pub, IRM.Public.mk.injEq] at hpub
  obtain ⟨p1, p2, p3, p4, p5, -⟩ := hpub
  -- the conversion reads only q1, q2, d1, d2 and efficacy
  let m3 : IRM N XR := { m2 with core := { m2.core with deltaT := ⟨.fin (p.dt / secPerYr), R.yr⟩ } }
  have h3 : m3.Phys R p.toIR := by
    refine ⟨?_, ?_, ?_, ?_, ?_, isNum_self _ _⟩
    · show IsNum R m2.q1 _ _; rw [p1]; exact hph.q1
    · show IsNum R m2.q2 _ _; rw [p2]; exact hph.q2
    · show IsNum R m2.d1 _ _; rw [p3]; exact hph.d1
    · show IsNum R m2.d2 _ _; rw [p4]; exact hph.d2
    · show IsNum R m2.efficacy _ _; rw [p5]; exact hph.efficacy
  obtain ⟨r2, hr2, hph2⟩ := IRM.getTL_phys L h3 hp.toIR_ok
  refine ⟨r, m2, r2, hr, hi, hr2, ?_⟩
  rw [hp.round_trip ha] at hph2
  exact hph2

/-! ## C40 The two models are the same system -/

/-- Two-layer object with `a = 0`, converted with the public method; `y1`, `y2` any solutions from rest of the box
equations with the returned coefficients (timescales in seconds) under piecewise constant forcing.  Then
`y1 + y2` and `φ1 y1 + φ2 y2` solve the two-layer equations with the object's own parameters. -/
theorem C40_boxes_solve_two_layer {m : TLM N XR} {p : TLPar} (hm : m.Phys R p) (hp : p.Pos) (ha : p.a = 0)
    {r : TLM.IRParams N XR} (hr : m.getImpulseResponseParameters R = .ok r) {q1 q2 d1 d2 : ℝ}
    (h1 : IsNum R r.q1 R.cwm2 q1) (h2 : IsNum R r.q2 R.cwm2 q2) (h3 : IsNum R r.d1 R.s d1) (h4 : IsNum R r.d2 R.s d2)
    {n : ℕ} {F : ℕ → ℝ} {y1 y2 : ℝ → ℝ} (b1 : BoxODE q1 d1 p.dt n F y1) (b2 : BoxODE q2 d2 p.dt n F y2) :
    TwoLayerSol p n F (fun t => y1 t + y2 t)
      (fun t => Geo.phi1 p.C p.D p.l p.e p.h * y1 t + Geo.phi2 p.C p.D p.l p.e p.h * y2 t) := by
  obtain ⟨r', hr', hph, -, -, -, s1, s2⟩ := TLM.getIR_phys L hm hp ha
  rw [hr] at hr'; cases hr'
  obtain rfl := h1.inj hph.q1
  obtain rfl := h2.inj hph.q2
  obtain rfl := h3.inj s1
  obtain rfl := h4.inj s2
  exact TLPar.ode_of_boxes hp b1 b2

/-- the impulse response object built from the conversion of `m`, with the same time step -/
theorem converted_phys {m : TLM N XR} {p : TLPar} (hm : m.Phys R p) (hp : p.Pos) (ha : p.a = 0)
    {r : TLM.IRParams N XR} (hr : m.getImpulseResponseParameters R = .ok r) {dt : Qty N XR}
    (hdt : IsNum R dt R.s p.dt) {m2 : IRM N XR} (hi : IRM.init R (r.args (.qty dt)) = .ok m2) :
    m2.Phys R p.toIR ∧ IRM.Reachable R m2 ∧ m2.q1.unit = m.dl.unit - m.eta.unit - m.du.unit ∧
      m2.q2.unit = m.dl.unit - m.eta.unit - m.du.unit ∧ m2.efficacy.unit = m.efficacy.unit := by
  obtain ⟨r', hr', hph, u1, u2, u3, s1, s2⟩ := TLM.getIR_phys L hm hp ha
  rw [hr] at hr'; cases hr'
  obtain ⟨h1, h2⟩ := IRM.init_phys L hp.toIR_ok.d2 hph.q1 hph.q2 hph.d1 hph.d2 hph.efficacy (isNum_yr_of_s L hdt)
  have h1' := h1
  unfold TLM.IRParams.args at hi
  rw [h1] at hi
  cases hi
  exact ⟨h2, ⟨_, _, [], h1', rfl⟩, u1, u2, u3⟩

/-- The converted impulse response model has no discretisation error: its surface temperature is, at every step, the
upper-layer temperature of the continuous two-layer equations, and `φ1 Box1 + φ2 Box2` the lower-layer one. -/
theorem C40_exact {m : TLM N XR} {p : TLPar} (hm : m.Phys R p) (hp : p.Pos) (ha : p.a = 0)
    {r : TLM.IRParams N XR} (hr : m.getImpulseResponseParameters R = .ok r) {dt : Qty N XR}
    (hdt : IsNum R dt R.s p.dt) {m2 : IRM N XR} (hi : IRM.init R (r.args (.qty dt)) = .ok m2)
    {d : DArg N XR} {n : ℕ} {F : ℕ → ℝ} (hd : IsForcing R d n F) {T1 T2 U : ℕ → ℝ}
    (hrun : IRM.Produces R m2 d n T1 T2 U) {T TD : ℝ → ℝ} (hs : TwoLayerSol p n F T TD) :
    ∀ i < n, T1 i + T2 i = T (i * p.dt) ∧
      Geo.phi1 p.C p.D p.l p.e p.h * T1 i + Geo.phi2 p.C p.D p.l p.e p.h * T2 i = TD (i * p.dt) := by
  obtain ⟨hph, hrch, -⟩ := converted_phys L hm hp ha hr hdt hi
  have hv := (IRM.boxes_val L (IRM.Reachable.coherent R hrch) hph hd hrun).1
  obtain ⟨b1, b2⟩ := TLPar.boxes_of_ode hp hs
  intro i hi
  obtain ⟨e1, e2⟩ := hv i hi
  have f1 := b1.eq_boxSol hp.tau1_pos.ne' hp.dt i hi.le
  have f2 := b2.eq_boxSol hp.tau2_pos.ne' hp.dt i hi.le
  rw [TLPar.toIR_T1, ← f1] at e1
  rw [TLPar.toIR_T2, ← f2] at e2
  have hne : p.phi2 - p.phi1 ≠ 0 := (Geo.phi_sub_pos hp.C hp.D hp.l hp.e hp.h).ne'
  have g1 : Geo.phi1 p.C p.D p.l p.e p.h = p.phi1 := rfl
  have g2 : Geo.phi2 p.C p.D p.l p.e p.h = p.phi2 := rfl
  rw [e1, e2, g1, g2]
  constructor
  · field_simp; ring
  · field_simp; ring

omit L in
/-- such solutions exist -/
theorem C40_solution_exists {p : TLPar} (hp : p.Pos) (n : ℕ) (F : ℕ → ℝ) : ∃ T TD, TwoLayerSol p n F T TD := by
  obtain ⟨y1, h1⟩ := BoxODE.exists p.q1 hp.tau1_pos.ne' hp.dt n F
  obtain ⟨y2, h2⟩ := BoxODE.exists p.q2 hp.tau2_pos.ne' hp.dt n F
  exact ⟨_, _, TLPar.ode_of_boxes hp h1 h2⟩

/-- A two-layer run is the sum of forward-Euler runs of the two boxes of the converted parameters. -/
theorem C40_euler {m : TLM N XR} (hreach : TLM.Reachable R m) {p : TLPar} (hm : m.Phys R p) (hp : p.Pos) (ha : p.a = 0)
    {r : TLM.IRParams N XR} (hr : m.getImpulseResponseParameters R = .ok r) {q1 q2 d1 d2 : ℝ}
    (h1 : IsNum R r.q1 R.cwm2 q1) (h2 : IsNum R r.q2 R.cwm2 q2) (h3 : IsNum R r.d1 R.s d1) (h4 : IsNum R r.d2 R.s d2)
    {d : DArg N XR} {n : ℕ} {F : ℕ → ℝ} (hd : IsForcing R d n F) {T TD U : ℕ → ℝ}
    (hrun : TLM.Produces R m d n T TD U) :
    ∃ y1 y2 : ℕ → ℝ, y1 0 = 0 ∧ y2 0 = 0 ∧
      (∀ i, d1 * ((y1 (i + 1) - y1 i) / p.dt) = q1 * F i - y1 i) ∧
      (∀ i, d2 * ((y2 (i + 1) - y2 i) / p.dt) = q2 * F i - y2 i) ∧
      ∀ i < n, T i = y1 i + y2 i ∧
        TD i = Geo.phi1 p.C p.D p.l p.e p.h * y1 i + Geo.phi2 p.C p.D p.l p.e p.h * y2 i := by
  obtain ⟨r', hr', hph, -, -, -, s1, s2⟩ := TLM.getIR_phys L hm hp ha
  rw [hr] at hr'; cases hr'
  obtain rfl := h1.inj hph.q1
  obtain rfl := h2.inj hph.q2
  obtain rfl := h3.inj s1
  obtain rfl := h4.inj s2
  have t1 := hp.tau1_pos; have t2 := hp.tau2_pos; have hdt := hp.dt
  refine ⟨TLPar.eul p.q1 p.tau1 p.dt F, TLPar.eul p.q2 p.tau2 p.dt F, rfl, rfl, fun i => ?_, fun i => ?_, fun i hi => ?_⟩
  · rw [show p.toIR.q1 = p.q1 from rfl, TLPar.eul, add_sub_cancel_left]; field_simp
  · rw [show p.toIR.q2 = p.q2 from rfl, TLPar.eul, add_sub_cancel_left]; field_simp
  · obtain ⟨e1, e2, -⟩ := TLM.produces_val L (TLM.Reachable.coherent R L.toDimensional hreach) hm hp.ok hd hrun i hi
    rw [e1, e2]
    exact TLPar.modes hp ha F i

/-! ## C41, C42 Agreement of the two models -/

/-- Two-layer object and the impulse response object converted from it, same time step, no longer than the fast
timescale: upper temperature and surface temperature differ by at most `dt·M/C` at every step. -/
theorem C41_agree {m : TLM N XR} (hreach : TLM.Reachable R m) {p : TLPar} (hm : m.Phys R p) (hp : p.Pos) (ha : p.a = 0)
    {r : TLM.IRParams N XR} (hr : m.getImpulseResponseParameters R = .ok r) {dt : Qty N XR}
    (hdt : IsNum R dt R.s p.dt) {m2 : IRM N XR} (hi : IRM.init R (r.args (.qty dt)) = .ok m2)
    {d1 : ℝ} (hd1 : IsNum R r.d1 R.s d1) (hle : p.dt ≤ d1)
    {d : DArg N XR} {n : ℕ} {F : ℕ → ℝ} (hd : IsForcing R d n F) {M : ℝ} (hF : ∀ i < n, |F i| ≤ M)
    {T TD U T1 T2 U2 : ℕ → ℝ} (hrun : TLM.Produces R m d n T TD U) (hrun2 : IRM.Produces R m2 d n T1 T2 U2) :
    ∀ i < n, |T i - (T1 i + T2 i)| ≤ p.dt * M / p.C := by
  obtain ⟨r', hr', hph', -, -, -, s1, s2⟩ := TLM.getIR_phys L hm hp ha
  rw [hr] at hr'; cases hr'
  obtain rfl := hd1.inj s1
  obtain ⟨hph, hrch, -⟩ := converted_phys L hm hp ha hr hdt hi
  have hv := (IRM.boxes_val L (IRM.Reachable.coherent R hrch) hph hd hrun2).1
  intro i hi
  obtain ⟨e1, e2⟩ := hv i hi
  obtain ⟨e3, -⟩ := TLM.produces_val L (TLM.Reachable.coherent R L.toDimensional hreach) hm hp.ok hd hrun i hi
  rw [e1, e2, e3]
  exact (TLPar.agree hp ha hle (k := i) (fun j hj => hF j (by omega)) ((abs_nonneg _).trans (hF i hi)) i le_rfl).1

/-- The same for the lower layer: the two-layer model's lower temperature and `φ1 Box1 + φ2 Box2`. -/
theorem C41_agree_lower {m : TLM N XR} (hreach : TLM.Reachable R m) {p : TLPar} (hm : m.Phys R p) (hp : p.Pos)
    (ha : p.a = 0) {r : TLM.IRParams N XR} (hr : m.getImpulseResponseParameters R = .ok r) {dt : Qty N XR}
    (hdt : IsNum R dt R.s p.dt) {m2 : IRM N XR} (hi : IRM.init R (r.args (.qty dt)) = .ok m2)
    {q1 q2 d1 d2 : ℝ} (h1 : IsNum R r.q1 R.cwm2 q1) (h2 : IsNum R r.q2 R.cwm2 q2)
    (hd1 : IsNum R r.d1 R.s d1) (hd2 : IsNum R r.d2 R.s d2) (hle : p.dt ≤ d1)
    {d : DArg N XR} {n : ℕ} {F : ℕ → ℝ} (hd : IsForcing R d n F) {M : ℝ} (hF : ∀ i < n, |F i| ≤ M)
    {T TD U T1 T2 U2 : ℕ → ℝ} (hrun : TLM.Produces R m d n T TD U) (hrun2 : IRM.Produces R m2 d n T1 T2 U2) :
    ∀ i < n, |TD i - (Geo.phi1 p.C p.D p.l p.e p.h * T1 i + Geo.phi2 p.C p.D p.l p.e p.h * T2 i)| ≤
      p.dt * M * (|Geo.phi1 p.C p.D p.l p.e p.h| * (q1 / d1) + |Geo.phi2 p.C p.D p.l p.e p.h| * (q2 / d2)) := by
  obtain ⟨r', hr', hph', -, -, -, s1, s2⟩ := TLM.getIR_phys L hm hp ha
  rw [hr] at hr'; cases hr'
  obtain rfl := hd1.inj s1
  obtain rfl := hd2.inj s2
  obtain rfl := h1.inj hph'.q1
  obtain rfl := h2.inj hph'.q2
  obtain ⟨hph, hrch, -⟩ := converted_phys L hm hp ha hr hdt hi
  have hv := (IRM.boxes_val L (IRM.Reachable.coherent R hrch) hph hd hrun2).1
  intro i hi
  obtain ⟨e1, e2⟩ := hv i hi
  obtain ⟨-, e3, -⟩ := TLM.produces_val L (TLM.Reachable.coherent R L.toDimensional hreach) hm hp.ok hd hrun i hi
  rw [e1, e2, e3]
  exact (TLPar.agree hp ha hle (k := i) (fun j hj => hF j (by omega)) ((abs_nonneg _).trans (hF i hi)) i le_rfl).2.1

/-- Heat uptake, for parameters given in the model's units (C44 says why that matters): the two models differ by at
most `K·dt·M` with `K = l/C + |e-1| h (|1-φ1| q1/d1 + |1-φ2| q2/d2)`. -/
theorem C42_agree {m : TLM N XR} (hreach : TLM.Reachable R m) {p : TLPar} (hm : m.Phys R p) (hp : p.Pos) (ha : p.a = 0)
    (hu1 : m.du.unit = m.dl.unit) (hu2 : m.eta.unit = R.wm2c) (hu3 : m.efficacy.unit = R.one)
    {r : TLM.IRParams N XR} (hr : m.getImpulseResponseParameters R = .ok r) {dt : Qty N XR}
    (hdt : IsNum R dt R.s p.dt) {m2 : IRM N XR} (hi : IRM.init R (r.args (.qty dt)) = .ok m2)
    {q1 q2 d1 d2 : ℝ} (h1 : IsNum R r.q1 R.cwm2 q1) (h2 : IsNum R r.q2 R.cwm2 q2)
    (hd1 : IsNum R r.d1 R.s d1) (hd2 : IsNum R r.d2 R.s d2) (hle : p.dt ≤ d1)
    {d : DArg N XR} {n : ℕ} (hn : n ≠ 0) {F : ℕ → ℝ} (hd : IsForcing R d n F) {M : ℝ} (hF : ∀ i < n, |F i| ≤ M) :
    ∃ T TD U T1 T2 U2 : ℕ → ℝ, TLM.Produces R m d n T TD U ∧ IRM.Produces R m2 d n T1 T2 U2 ∧
      ∀ i < n, |U i - U2 i| ≤ (p.l / p.C + |p.e - 1| * p.h * (|1 - Geo.phi1 p.C p.D p.l p.e p.h| * (q1 / d1) +
        |1 - Geo.phi2 p.C p.D p.l p.e p.h| * (q2 / d2))) * (p.dt * M) := by
  obtain ⟨r', hr', hph', -, -, -, s1, s2⟩ := TLM.getIR_phys L hm hp ha
  rw [hr] at hr'; cases hr'
  obtain rfl := hd1.inj s1
  obtain rfl := hd2.inj s2
  obtain rfl := h1.inj hph'.q1
  obtain rfl := h2.inj hph'.q2
  obtain ⟨hph, hrch, v1, v2, v3⟩ := converted_phys L hm hp ha hr hdt hi
  have hcw : m.dl.unit - m.eta.unit - m.du.unit = R.cwm2 := by
    rw [hu1, hu2]; simp only [Registry.cwm2, Registry.wm2c]; abel
  rw [hcw] at v1 v2
  rw [hu3] at v3
  have hκ : IsNum R ⟨.fin 1, m2.q1.unit⟩ R.cwm2 1 := by rw [v1]; exact isNum_self _ _
  refine ⟨_, _, _, _, _, _, TLM.produces_sol L (TLM.Reachable.coherent R L.toDimensional hreach) hm hp.ok hn hd,
    IRM.produces_sol L (IRM.Reachable.coherent R hrch) hph hp.toIR_ok hκ hn hd
      (Or.inl (Or.inr (by rw [v2, v3]; simp [Registry.one]))), fun i hi => ?_⟩
  exact TLPar.agree_uptake hp ha hle (k := i) (fun j hj => hF j (by omega)) ((abs_nonneg _).trans (hF i hi)) i (by omega)

/-! ## C33, C40 seen from an impulse response object -/

/-- Impulse response object `m` with `q1` in the model's own unit; `T`, `TD` solve the two-layer equations with the
parameters its `get_two_layer_parameters` returns, under the same forcing.  Then the object's surface temperature is `T`
at every step, and the heat uptake it reports over a step is the energy imbalance `F - l T - (e-1) h (T - TD)` of that
two-layer system at the start of the step. -/
theorem C33_two_layer {m : IRM N XR} (hm : IRM.Reachable R m) {p : IRPar} (hp : m.Phys R p) (hok : p.Ok)
    (hdt : 0 < p.dt) (hunit : m.q1.unit = R.cwm2) {r : IRM.TLParams N XR} (hr : m.getTwoLayerParameters R = .ok r)
    {C D l e h dt : ℝ} (h1 : IsNum R r.du R.m (C / (1000 * 4181))) (h2 : IsNum R r.dl R.m (D / (1000 * 4181)))
    (h3 : IsNum R r.lambda0 R.wm2c l) (h4 : IsNum R r.efficacy R.one e) (h5 : IsNum R r.eta R.wm2c h)
    (h6 : IsNum R m.core.deltaT R.s dt)
    {d : DArg N XR} {n : ℕ} {F : ℕ → ℝ} (hd : IsForcing R d n F) {T1 T2 U : ℕ → ℝ}
    (hrun : IRM.Produces R m d n T1 T2 U) {T TD : ℝ → ℝ} (hs : TwoLayerSol ⟨C, D, l, 0, e, h, dt⟩ n F T TD) :
    (∀ i < n, T1 i + T2 i = T (i * dt)) ∧
    ∀ i, i + 1 < n → U (i + 1) = F i - l * T (i * dt) - (e - 1) * h * (T (i * dt) - TD (i * dt)) := by
  obtain ⟨r', hr', hph⟩ := IRM.getTL_phys L hp hok
  rw [hr] at hr'; cases hr'
  have hC : C = p.toTL.C := by have := h1.inj hph.du; field_simp at this; exact this
  have hD : D = p.toTL.D := by have := h2.inj hph.dl; field_simp at this; exact this
  have hl : l = p.toTL.l := h3.inj hph.lambda0
  have he : e = p.toTL.e := h4.inj hph.efficacy
  have hh : h = p.toTL.h := h5.inj hph.eta
  have hdt' : dt = p.toTL.dt := h6.inj (isNum_s_of_yr L hp.dt)
  subst hC hD hl he hh hdt'
  have hP := hok.toTL_pos hdt
  have hrt := hok.round_trip
  have hs' : TwoLayerSol p.toTL n F T TD := hs
  obtain ⟨b1, b2⟩ := TLPar.boxes_of_ode hP hs'
  obtain ⟨g1, g2, g3⟩ := TLPar.toIR_h hP rfl
  rw [hrt] at g1 g2 g3
  have hne : p.toTL.phi2 - p.toTL.phi1 ≠ 0 := (Geo.phi_sub_pos hP.C hP.D hP.l hP.e hP.h).ne'
  have hv := (IRM.boxes_val L (IRM.Reachable.coherent R hm) hp hd hrun).1
  have key : ∀ i < n, T1 i + T2 i = T (i * p.toTL.dt) ∧
      p.toTL.phi1 * T1 i + p.toTL.phi2 * T2 i = TD (i * p.toTL.dt) := by
    intro i hi
    obtain ⟨e1, e2⟩ := hv i hi
    have f1 := b1.eq_boxSol hP.tau1_pos.ne' hP.dt i hi.le
    have f2 := b2.eq_boxSol hP.tau2_pos.ne' hP.dt i hi.le
    rw [← TLPar.toIR_T1, hrt] at f1
    rw [← TLPar.toIR_T2, hrt] at f2
    rw [e1, e2, ← f1, ← f2]
    constructor
    · field_simp; ring
    · field_simp; ring
  refine ⟨fun i hi => (key i hi).1, fun i hi => ?_⟩
  have hκ : IsNum R ⟨.fin 1, m.q1.unit⟩ R.cwm2 1 := by rw [hunit]; exact isNum_self _ _
  have := ((IRM.produces_iff L (IRM.Reachable.coherent R hm) hp hok hκ (by omega) hd T1 T2 U).mp hrun).2.uptake.2 i hi
  rw [this, g1, g2, g3, ← (key i (by omega)).2, (key i (by omega)).1]
  rw [show p.l = p.toTL.l from rfl, show p.e = p.toTL.e from rfl]
  ring
end

/-- a one-year step is shorter than the fast timescale of the default model, so C41 and C42 apply to it -/
example : ∃ m r m2, TLM.Reachable U0.reg m ∧ m.Phys U0.reg TLPar.default ∧
    m.du.unit = m.dl.unit ∧ m.eta.unit = U0.reg.wm2c ∧ m.efficacy.unit = U0.reg.one ∧
    m.getImpulseResponseParameters U0.reg = .ok r ∧
    IRM.init U0.reg (r.args (.qty ⟨.fin 31557600, U0.reg.s⟩)) = .ok m2 ∧ IsNum U0.reg r.d1 U0.reg.s TLPar.default.tau1 ∧
    TLPar.default.dt ≤ TLPar.default.tau1 := by
  obtain ⟨m, h, hp⟩ := TLM.default_exists U0.lawful
  have hpub : m.du.unit = m.dl.unit ∧ m.eta.unit = U0.reg.wm2c ∧ m.efficacy.unit = U0.reg.one := by
    have hi : TLM.init U0.reg (TLM.defaultArgs U0.reg) = .ok _ := TLM.init_good U0.lawful.toDimensional (Or.inl rfl)
      (Or.inl rfl) (Or.inl rfl) (Or.inl rfl) (Or.inl rfl) (Or.inl rfl) (Or.inl rfl)
    rw [hi] at h
    cases h
    exact ⟨rfl, rfl, rfl⟩
  obtain ⟨r, q1, q2, d1, d2, hr, -, -, -, -, -, -, -, -, -, hacc⟩ := C36_usable U0.lawful hp TLPar.default_pos rfl
  obtain ⟨r', hr', -, -, -, -, s1, -⟩ := TLM.getIR_phys U0.lawful hp TLPar.default_pos rfl
  rw [hr] at hr'; cases hr'
  obtain ⟨m2, hm2, -⟩ := hacc ⟨.fin 31557600, U0.reg.s⟩
    ⟨_, toUnit_ok ((U0.lawful.unitOk_iff _ _).mpr U0.lawful.dm_year.symm)⟩
  refine ⟨m, r, m2, ⟨_, m, [], h, rfl⟩, hp, hpub.1, hpub.2.1, hpub.2.2, hr, hm2, s1, ?_⟩
  -- 1/τ1 ≤ 1/τ1 + 1/τ2 = (l + e h)/C + h/D
  have hr := TLPar.default_pos.rates
  have t1 := TLPar.default_pos.tau1_pos
  have t2 := TLPar.default_pos.tau2_pos
  have h2 : 0 < 1 / TLPar.default.tau2 := by positivity
  have hb : (TLPar.default.l + TLPar.default.e * TLPar.default.h) / TLPar.default.C + TLPar.default.h / TLPar.default.D ≤
      1 / TLPar.default.dt := by norm_num [TLPar.default]
  have h1 : 1 / TLPar.default.tau1 ≤ 1 / TLPar.default.dt := by linarith
  exact (one_div_le_one_div t1 TLPar.default_pos.dt).mp h1

end TwoLayer
