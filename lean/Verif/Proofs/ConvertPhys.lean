import Verif.Spec.Convert
import Verif.Proofs.Init
import Verif.Proofs.TLMath

/-! # The two conversion methods in real numbers -/

set_option linter.unusedSimpArgs false
set_option linter.unusedSectionVars false

namespace TwoLayer
variable {N : Type} [Fintype N] [DecidableEq N] {R : Registry N XR}

namespace Registry.Lawful
variable (L : R.Lawful)

theorem sc_year : L.sc R.yr = secPerYr * L.sc R.s := by
  have h1 : L.sc R.yr = L.scale R.year := by simp [Registry.Lawful.sc, Registry.yr]
  have h2 : L.sc R.s = L.scale R.second := by simp [Registry.Lawful.sc, Registry.s]
  rw [h1, h2, L.scale_year]; rfl

theorem dm_year : L.dm R.yr = L.dm R.s := by
  show L.dm (u1 R.year) = L.dm (u1 R.second)
  rw [L.dm_u1, L.dm_u1]; exact L.dim_year

theorem sc_jm2c : L.sc R.jm2c = L.sc R.wm2c * L.sc R.s := by
  have h1 : L.sc (u1 R.joule) = L.sc (u1 R.watt) * L.sc (u1 R.second) := by
    simp [Registry.Lawful.sc, L.scale_joule]
  have h2 : R.jm2c = u1 R.joule + (-u1 R.ddegC - (2 : ℚ) • u1 R.meter) := by simp only [Registry.jm2c]; abel
  have h3 : R.wm2c = u1 R.watt + (-u1 R.ddegC - (2 : ℚ) • u1 R.meter) := by
    simp only [Registry.wm2c, Registry.wm2]; abel
  rw [h2, h3, L.sc_add, L.sc_add, h1]
  show _ = _ * L.sc (u1 R.second)
  ring

theorem dm_jm2c : L.dm R.jm2c = L.dm R.wm2c + L.dm R.s := by
  have h1 : L.dm (u1 R.joule) = L.dm (u1 R.watt) + L.dm (u1 R.second) := by
    simp only [L.dm_u1]; exact L.dim_joule
  have h2 : R.jm2c = u1 R.joule + (-u1 R.ddegC - (2 : ℚ) • u1 R.meter) := by simp only [Registry.jm2c]; abel
  have h3 : R.wm2c = u1 R.watt + (-u1 R.ddegC - (2 : ℚ) • u1 R.meter) := by
    simp only [Registry.wm2c, Registry.wm2]; abel
  rw [h2, h3, L.dm_add, L.dm_add, h1]
  show _ = _ + L.dm (u1 R.second)
  abel

omit L in
theorem jm2c_eq : R.jm2c = R.m + cwU R + rhoU R := by
  simp only [Registry.jm2c, cwU, rhoU, Registry.m]
  have : (3 : ℚ) • u1 R.meter = u1 R.meter + (2 : ℚ) • u1 R.meter := by
    rw [show (3 : ℚ) = 1 + 2 by norm_num, add_smul, one_smul]
  rw [this]; abel

theorem sc_cwm2 : L.sc R.cwm2 = (L.sc R.wm2c)⁻¹ := by
  have : R.cwm2 = -R.wm2c := by simp only [Registry.cwm2, Registry.wm2c]; abel
  rw [this, L.sc_neg]

theorem dm_cwm2 : L.dm R.cwm2 = -L.dm R.wm2c := by
  have : R.cwm2 = -R.wm2c := by simp only [Registry.cwm2, Registry.wm2c]; abel
  rw [this, L.dm_neg]

theorem cap_eq (x : ℝ) : x / (1000 * 4181) * L.sc R.m * L.cw * L.rho = L.sc R.jm2c * x := by
  rw [jm2c_eq, L.sc_add, L.sc_add]
  unfold cw rho
  ring

theorem cap_inv (x : ℝ) : L.sc R.jm2c * x / (L.rho * L.cw) = x / (1000 * 4181) * L.sc R.m := by
  rw [jm2c_eq, L.sc_add, L.sc_add]
  unfold cw rho
  have := L.sc_ne (rhoU R); have := L.sc_ne (cwU R)
  field_simp
end Registry.Lawful

section
variable (L : R.Lawful)
include L

/-- the Geoffroy helper parameters on physical parameters -/
structure GHPhys (R : Registry N XR) (g : GH N XR) (p : TLPar) : Prop where
  C : IsNum R g.C R.jm2c p.C
  CD : IsNum R g.CD R.jm2c p.D
  tau1 : IsNum R g.tau1 R.s p.tau1
  tau2 : IsNum R g.tau2 R.s p.tau2
  phi1 : IsNum R g.phi1 R.one p.phi1
  phi2 : IsNum R g.phi2 R.one p.phi2
  a1 : IsNum R g.a1 R.one (Geo.a1 p.C p.D p.l p.e p.h)
  a2 : IsNum R g.a2 R.one (Geo.a2 p.C p.D p.l p.e p.h)

theorem isNum_of_quant {w u : Units N} {v x : ℝ} (h : L.dm w = L.dm u) (hv : v = x * L.sc u) :
    IsNum R (L.quant w v) u x := by
  have := L.isNum_quant (w := w) (u := u) (v := v) h
  rwa [hv, mul_div_assoc, div_self (L.sc_ne u), mul_one, ← hv] at this

theorem geoffroy_phys {du dl l e h : Qty N XR} {p : TLPar} (hp : p.Pos)
    (h1 : IsNum R du R.m (p.C / (1000 * 4181))) (h2 : IsNum R dl R.m (p.D / (1000 * 4181)))
    (h3 : IsNum R l R.wm2c p.l) (h4 : IsNum R e R.one p.e) (h5 : IsNum R h R.wm2c p.h) :
    ∃ g, geoffroy R du dl l e h = .ok g ∧ GHPhys R g p ∧
      ∃ dphi q1 q2, g.phi2.sub R g.phi1 = .ok dphi ∧ (g.tau1.mul g.phi2).div (g.C.mul dphi) = .ok q1 ∧
        (g.tau2.neg.mul g.phi1).div (g.C.mul dphi) = .ok q2 ∧ IsNum R q1 R.cwm2 p.q1 ∧ IsNum R q2 R.cwm2 p.q2 ∧
        q1.unit = dl.unit - h.unit - du.unit ∧ q2.unit = dl.unit - h.unit - du.unit := by
  obtain ⟨a1, b1⟩ := L.isNum_iff.mp h1
  obtain ⟨a2, b2⟩ := L.isNum_iff.mp h2
  obtain ⟨a3, b3⟩ := L.isNum_iff.mp h3
  obtain ⟨a4, b4⟩ := L.isNum_iff.mp h4
  obtain ⟨a5, b5⟩ := L.isNum_iff.mp h5
  have hm := L.sc_pos R.m
  have hw := L.sc_pos R.wm2c
  have hj := L.sc_pos R.jm2c
  have hs := L.sc_pos R.s
  have hC := hp.C; have hD := hp.D; have hl := hp.l; have he := hp.e; have hh := hp.h
  have ho : L.sc R.one = 1 := L.sc_zero
  have hdo : L.dm R.one = 0 := L.dm_zero
  rw [ho, mul_one] at a4
  have key := L.geoffroy_quant du.unit dl.unit l.unit e.unit h.unit (b2.trans b1.symm) (b4.trans hdo)
    (b5.trans b3.symm) (p.C / (1000 * 4181) * L.sc R.m) (p.D / (1000 * 4181) * L.sc R.m) (p.l * L.sc R.wm2c) p.e
    (p.h * L.sc R.wm2c) (by positivity) (by positivity) (by positivity) he (by positivity)
  simp only at key
  rw [← a1, ← a2, ← a3, ← a4, ← a5, L.cap_eq, L.cap_eq, mul_comm p.l, mul_comm p.h] at key
  have t1 := Geo.tau1_scale (e := p.e) hj hw hC.ne' hD.ne' hl.ne' hh.ne'
  have t2 := Geo.tau2_scale (e := p.e) hj hw hC.ne' hD.ne' hl.ne' hh.ne'
  have f1 := Geo.phi1_scale (l := p.l) hj hw hC.ne' hD.ne' he.ne' hh.ne'
  have f2 := Geo.phi2_scale (l := p.l) hj hw hC.ne' hD.ne' he.ne' hh.ne'
  have g1 := Geo.q1_scale hj hw hC.ne' hD.ne' hl.ne' he.ne' hh.ne'
  have g2 := Geo.q2_scale hj hw hC.ne' hD.ne' hl.ne' he.ne' hh.ne'
  have hrs : L.sc R.jm2c / L.sc R.wm2c = L.sc R.s := by rw [L.sc_jm2c]; field_simp
  set r := L.sc R.jm2c with hr
  set s := L.sc R.wm2c with hs'
  have hdC : L.dm (du.unit + Registry.Lawful.cwU R + Registry.Lawful.rhoU R) = L.dm R.jm2c := by
    rw [Registry.Lawful.jm2c_eq]; simp only [L.dm_add, b1]
  have hdD : L.dm (dl.unit + Registry.Lawful.cwU R + Registry.Lawful.rhoU R) = L.dm R.jm2c := by
    rw [Registry.Lawful.jm2c_eq]; simp only [L.dm_add, b2]
  have hdtau : L.dm (geoUnits R du.unit dl.unit l.unit e.unit h.unit).tau = L.dm R.s := by
    simp only [geoUnits, L.dm_add, L.dm_sub] at hdC hdD ⊢
    rw [b3, b5]
    have : L.dm R.jm2c = L.dm R.wm2c + L.dm R.s := L.dm_jm2c
    rw [hdC, hdD, this]; abel
  have hdphi : L.dm (geoUnits R du.unit dl.unit l.unit e.unit h.unit).phi = L.dm R.one := by
    simp only [geoUnits, L.dm_add, L.dm_sub] at hdC hdD ⊢
    rw [b3, b5, b4, hdC, hdo]; abel
  have hdCC : L.dm (geoUnits R du.unit dl.unit l.unit e.unit h.unit).C = L.dm R.jm2c := hdC
  have rC : 0 < r * p.C := by positivity
  have rD : 0 < r * p.D := by positivity
  have rl : 0 < s * p.l := by positivity
  have rh : 0 < s * p.h := by positivity
  have hps := Geo.phi_sub_pos rC rD rl he rh
  refine ⟨_, key, ⟨?_, ?_, ?_, ?_, ?_, ?_, ?_, ?_⟩, ?_⟩
  · exact isNum_of_quant L hdC (by ring)
  · exact isNum_of_quant L hdD (by ring)
  · exact isNum_of_quant L hdtau (by rw [t1, hrs]; unfold TLPar.tau1; ring)
  · exact isNum_of_quant L hdtau (by rw [t2, hrs]; unfold TLPar.tau2; ring)
  · exact isNum_of_quant L hdphi (by rw [f1, ho]; unfold TLPar.phi1; ring)
  · exact isNum_of_quant L hdphi (by rw [f2, ho]; unfold TLPar.phi2; ring)
  · refine isNum_of_quant L ?_ ?_
    · simp only [L.dm_add, L.dm_sub, hdtau, hdphi, hdCC, b3]
      rw [L.dm_jm2c, hdo]; abel
    · rw [Geo.a1_eq hC hD hl he hh, Geo.a1_eq rC rD rl he rh, g1, ho]; field_simp
  · refine isNum_of_quant L ?_ ?_
    · simp only [L.dm_add, L.dm_sub, hdtau, hdphi, hdCC, b3]
      rw [L.dm_jm2c, hdo]; abel
    · rw [Geo.a2_eq hC hD hl he hh, Geo.a2_eq rC rD rl he rh, g2, ho]; field_simp
  · let g := geoUnits R du.unit dl.unit l.unit e.unit h.unit
    refine ⟨_, L.quant (g.tau + g.phi - (g.C + g.phi)) (Geo.q1 (r * p.C) (r * p.D) (s * p.l) p.e (s * p.h)),
      L.quant (g.tau + g.phi - (g.C + g.phi)) (Geo.q2 (r * p.C) (r * p.D) (s * p.l) p.e (s * p.h)),
      L.sub_mk _ _ _ _ rfl, ?_, ?_, ?_, ?_, ?_, ?_⟩
    · simp only [L.mul_mk, L.neg_mk]
      exact L.div_mk _ _ _ _ (mul_pos rC hps).ne'
    · simp only [L.mul_mk, L.neg_mk]
      exact L.div_mk _ _ _ _ (mul_pos rC hps).ne'
    · refine isNum_of_quant L ?_ ?_
      · simp only [g, L.dm_add, L.dm_sub, hdtau, hdphi, hdCC, L.dm_cwm2]
        rw [L.dm_jm2c, hdo]; abel
      · rw [g1, L.sc_cwm2]
        rfl
    · refine isNum_of_quant L ?_ ?_
      · simp only [g, L.dm_add, L.dm_sub, hdtau, hdphi, hdCC, L.dm_cwm2]
        rw [L.dm_jm2c, hdo]; abel
      · rw [g2, L.sc_cwm2]
        rfl
    · simp only [g, Registry.Lawful.quant_unit, geoUnits]; abel
    · simp only [g, Registry.Lawful.quant_unit, geoUnits]; abel

theorem isNum_yr_of_s {q : Qty N XR} {x : ℝ} (h : IsNum R q R.s x) : IsNum R q R.yr (x / secPerYr) := by
  obtain ⟨a, b⟩ := L.isNum_iff.mp h
  refine L.isNum_iff.mpr ⟨?_, b.trans L.dm_year.symm⟩
  rw [L.sc_year]
  have : secPerYr ≠ 0 := by norm_num [secPerYr]
  rw [show x / secPerYr * (secPerYr * L.sc R.s) = x * L.sc R.s by field_simp]
  exact a

theorem isNum_s_of_yr {q : Qty N XR} {x : ℝ} (h : IsNum R q R.yr x) : IsNum R q R.s (x * secPerYr) := by
  obtain ⟨a, b⟩ := L.isNum_iff.mp h
  refine L.isNum_iff.mpr ⟨?_, b.trans L.dm_year⟩
  rw [L.sc_year] at a
  rw [show x * secPerYr * L.sc R.s = x * (secPerYr * L.sc R.s) by ring]
  exact a

theorem isNum_zero_mag {q : Qty N XR} {u : Units N} {x : ℝ} (h : IsNum R q u x) : q.mag = .fin 0 ↔ x = 0 := by
  obtain ⟨a, -⟩ := L.isNum_iff.mp h
  rw [a, Registry.Lawful.quant_mag, XR.fin_inj]
  have := L.sc_ne q.unit; have := L.sc_ne u
  constructor
  · intro h; field_simp at h; simpa [L.sc_ne] using h
  · rintro rfl; simp

/-- `get_impulse_response_parameters` computes the equivalent impulse response parameters -/
theorem TLM.getIR_phys {m : TLM N XR} {p : TLPar} (hm : m.Phys R p) (hp : p.Pos) (ha : p.a = 0) :
    ∃ r, m.getImpulseResponseParameters R = .ok r ∧ r.Phys R p.toIR ∧
      r.q1.unit = m.dl.unit - m.eta.unit - m.du.unit ∧ r.q2.unit = m.dl.unit - m.eta.unit - m.du.unit ∧
      r.efficacy.unit = m.efficacy.unit ∧ IsNum R r.d1 R.s p.tau1 ∧ IsNum R r.d2 R.s p.tau2 := by
  obtain ⟨g, hg, hG, dphi, q1, q2, e1, e2, e3, i1, i2, u1, u2⟩ := geoffroy_phys L hp hm.du hm.dl hm.lambda0 hm.efficacy hm.eta
  refine ⟨⟨g.tau1, g.tau2, q1, q2, m.efficacy⟩, ?_, ⟨i1, i2, isNum_yr_of_s L hG.tau1, isNum_yr_of_s L hG.tau2,
    hm.efficacy⟩, u1, u2, rfl, hG.tau1, hG.tau2⟩
  unfold TLM.getImpulseResponseParameters
  rw [(isNum_zero_mag L hm.a).mpr ha]
  simp only [XR.ofNat_eq, Nat.cast_zero, XR.eq_fin, decide_true, Bool.not_true, Bool.false_eq_true, if_false]
  rw [hg, ok_bind, e1, ok_bind]
  rw [e2, ok_bind, e3, ok_bind]
  rfl

/-- `get_two_layer_parameters` computes the equivalent two-layer parameters -/
theorem IRM.getTL_boxes {m : IRM N XR} {p : IRPar} (hm : m.Phys R p) (hp : p.Boxes) :
    ∃ r, m.getTwoLayerParameters R = .ok r ∧ r.Phys R p.toTL := by
  obtain ⟨a1, b1⟩ := L.isNum_iff.mp hm.q1
  obtain ⟨a2, b2⟩ := L.isNum_iff.mp hm.q2
  obtain ⟨a3, b3⟩ := L.isNum_iff.mp hm.d1
  obtain ⟨a4, b4⟩ := L.isNum_iff.mp hm.d2
  obtain ⟨a5, b5⟩ := L.isNum_iff.mp hm.efficacy
  have hq := L.sc_pos R.cwm2
  have hy := L.sc_pos R.yr
  have hw := L.sc_pos R.wm2c
  have hs := L.sc_pos R.s
  have hS : 0 < secPerYr := by norm_num [secPerYr]
  have h1 := hp.q1; have h2 := hp.q2; have h3 := hp.d1; have h4 := hp.d2; have h5 := hp.e
  have ho : L.sc R.one = 1 := L.sc_zero
  have hdo : L.dm R.one = 0 := L.dm_zero
  rw [ho, mul_one] at a5
  have hL := Geo.invL_pos h1 h2
  have hLb := Geo.invL_pos (mul_pos h1 hq) (mul_pos h2 hq)
  have key := L.getTL_quant m m.q1.unit m.q2.unit m.d1.unit m.d2.unit m.efficacy.unit (b2.trans b1.symm)
    (b4.trans b3.symm) (b5.trans hdo) (p.q1 * L.sc R.cwm2) (p.q2 * L.sc R.cwm2) (p.d1 * L.sc R.yr)
    (p.d2 * L.sc R.yr) p.e (by positivity) (by positivity) h5.ne' (by positivity) a1 a2 a3 a4 a5
  simp only at key
  have hrescale : ∀ x, x * L.sc R.yr = (x * secPerYr) * L.sc R.s := by intro x; rw [L.sc_year]; ring
  rw [hrescale p.d1, hrescale p.d2] at key
  rw [Geo.invL_scale hq.ne', Geo.invH_scale hq.ne' hs.ne', Geo.invC_scale hq.ne' hs.ne',
    Geo.invD_scale hq.ne' hs.ne'] at key
  have hrs : L.sc R.s / L.sc R.cwm2 = L.sc R.jm2c := by rw [L.sc_jm2c, L.sc_cwm2]; field_simp
  rw [hrs, L.cap_inv, L.cap_inv] at key
  have hdm : L.dm R.m = L.dm R.jm2c - L.dm (Registry.Lawful.cwU R) - L.dm (Registry.Lawful.rhoU R) := by
    rw [Registry.Lawful.jm2c_eq]; simp only [L.dm_add]; abel
  refine ⟨_, key, ⟨?_, ?_, ?_, ?_, ?_⟩⟩
  · refine isNum_of_quant L ?_ rfl
    rw [hdm, L.dm_jm2c]
    simp only [L.dm_add, L.dm_sub, b1, b2, b3, b4, L.dm_cwm2, L.dm_year]; abel
  · refine isNum_of_quant L ?_ rfl
    rw [hdm, L.dm_jm2c]
    simp only [L.dm_add, L.dm_sub, L.dm_neg, b1, b2, b3, b4, b5, hdo, L.dm_cwm2, L.dm_year]; abel
  · refine isNum_of_quant L ?_ ?_
    · simp only [L.dm_neg, b1, L.dm_cwm2]; abel
    · rw [L.sc_cwm2]; simp [IRPar.toTL]
  · refine isNum_of_quant L b5 ?_
    rw [ho, mul_one]; rfl
  · refine isNum_of_quant L ?_ ?_
    · simp only [L.dm_add, L.dm_sub, L.dm_neg, b1, b2, b3, b4, b5, hdo, L.dm_cwm2, L.dm_year]; abel
    · rw [L.sc_cwm2]; simp [IRPar.toTL]
/-- `get_two_layer_parameters` computes the equivalent two-layer parameters -/
theorem IRM.getTL_phys {m : IRM N XR} {p : IRPar} (hm : m.Phys R p) (hp : p.Ok) :
    ∃ r, m.getTwoLayerParameters R = .ok r ∧ r.Phys R p.toTL := IRM.getTL_boxes L hm hp.boxes
end

/-! ## Round trips in real numbers -/

theorem secPerYr_pos : 0 < secPerYr := by norm_num [secPerYr]

theorem TLPar.Pos.toIR_ok {p : TLPar} (hp : p.Pos) : p.toIR.Ok := by
  have := secPerYr_pos
  refine ⟨hp.q1_pos, hp.q2_pos, div_pos hp.tau1_pos this, ?_, hp.e⟩
  exact div_lt_div_of_pos_right hp.tau_lt this

theorem IRPar.Ok.toTL_pos {p : IRPar} (hp : p.Ok) (hdt : 0 < p.dt) : p.toTL.Pos := by
  have hS := secPerYr_pos
  have h1 := mul_pos hp.d1 hS
  have h2 := mul_lt_mul_of_pos_right hp.d2 hS
  exact ⟨Geo.invC_pos hp.q1 hp.q2 h1 h2, Geo.invD_pos hp.q1 hp.q2 h1 h2 hp.e, Geo.invL_pos hp.q1 hp.q2, hp.e,
    Geo.invH_pos hp.q1 hp.q2 h1 h2 hp.e, mul_pos hdt hS⟩

theorem IRPar.Boxes.toTL_pos {p : IRPar} (hp : p.Boxes) (hdt : 0 < p.dt) : p.toTL.Pos := by
  have hS := secPerYr_pos
  have h1 := mul_pos hp.d1 hS
  have h2 := mul_pos hp.d2 hS
  have h3 : p.d1 * secPerYr ≠ p.d2 * secPerYr := fun h => hp.ne (mul_right_cancel₀ hS.ne' h)
  exact ⟨Geo.invC_pos' hp.q1 hp.q2 h1 h2, Geo.invD_pos' hp.q1 hp.q2 h1 h2 h3 hp.e, Geo.invL_pos hp.q1 hp.q2, hp.e,
    Geo.invH_pos' hp.q1 hp.q2 h1 h2 h3 hp.e, mul_pos hdt hS⟩

theorem TLPar.Pos.round_trip {p : TLPar} (hp : p.Pos) (ha : p.a = 0) : p.toIR.toTL = p := by
  have hS := secPerYr_pos.ne'
  obtain ⟨h1, h2, h3, h4⟩ := Geo.round_trip_tl hp.C hp.D hp.l hp.e hp.h
  obtain ⟨C, D, l, a, e, h, dt⟩ := p
  simp only at ha
  subst ha
  simp only [TLPar.toIR, IRPar.toTL, div_mul_cancel₀ _ hS, TLPar.tau1, TLPar.tau2] at *
  rw [h1, h2, h3, h4]

theorem IRPar.Ok.round_trip {p : IRPar} (hp : p.Ok) : p.toTL.toIR = p := by
  have hS := secPerYr_pos
  have h1 := mul_pos hp.d1 hS
  have h2 := mul_lt_mul_of_pos_right hp.d2 hS
  obtain ⟨g1, g2, g3, g4⟩ := Geo.round_trip_ir hp.q1 hp.q2 h1 h2 hp.e
  obtain ⟨q1, q2, d1, d2, e, dt⟩ := p
  simp only [TLPar.toIR, IRPar.toTL, TLPar.tau1, TLPar.tau2] at *
  rw [g1, g2, g3, g4]
  simp [hS.ne']

end TwoLayer
