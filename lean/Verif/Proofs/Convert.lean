import Verif.Proofs.Geoffroy

/-! # Evaluation of the two parameter conversions on physical values -/

set_option linter.unusedSimpArgs false
set_option linter.unusedSectionVars false

namespace TwoLayer
variable {N : Type} [Fintype N] [DecidableEq N] {R : Registry N XR}

namespace Registry.Lawful
variable (L : R.Lawful)

/-- `get_two_layer_parameters` on physical values -/
theorem getTL_quant (mdl : IRM N XR) (uq1 uq2 ud1 ud2 ue : Units N) (hq : L.dm uq2 = L.dm uq1)
    (hd : L.dm ud2 = L.dm ud1) (hue : L.dm ue = 0) (q1 q2 d1 d2 e : ℝ)
    (h0 : q1 + q2 ≠ 0) (h1 : q1 * d2 + q2 * d1 ≠ 0) (h2 : e ≠ 0)
    (h3 : d1 * (Geo.invL q1 q2 * q2) + d2 * (Geo.invL q1 q2 * q1) ≠ 0)
    (e1 : mdl.q1 = L.quant uq1 q1) (e2 : mdl.q2 = L.quant uq2 q2) (e3 : mdl.d1 = L.quant ud1 d1)
    (e4 : mdl.d2 = L.quant ud2 d2) (e5 : mdl.efficacy = L.quant ue e) :
    let uC := ud1 + ud2 - (uq1 + ud2)
    let uD := (-uq1 + (ud1 + (-uq1 + uq1))) - ue
    mdl.getTwoLayerParameters R = .ok {
      lambda0 := L.quant (-uq1) (Geo.invL q1 q2)
      du := L.quant (uC - (rhoU R + cwU R)) (Geo.invC q1 q2 d1 d2 / (L.rho * L.cw))
      dl := L.quant (uD - (rhoU R + cwU R)) (Geo.invD q1 q2 d1 d2 e / (L.rho * L.cw))
      eta := L.quant (uD - (ud1 + (-uq1 + uq2))) (Geo.invH q1 q2 d1 d2 e)
      efficacy := L.quant ue e } := by
  intro uC uD
  have hrc : L.rho * L.cw ≠ 0 := (mul_pos L.rho_pos L.cw_pos).ne'
  unfold IRM.getTwoLayerParameters
  rw [e1, e2, e3, e4, e5, L.add_mk _ _ _ _ hq, ok_bind]
  simp only [XR.ofNat_eq, Nat.cast_one]
  rw [L.ndiv_mk _ _ _ h0, ok_bind, show (1 : ℝ) / (q1 + q2) = Geo.invL q1 q2 from rfl]
  simp only [L.mul_mk]
  rw [L.add_mk _ _ _ _ (by simp only [L.dm_add, hq, hd]), ok_bind, L.div_mk _ _ _ _ h1, ok_bind,
    L.add_mk _ _ _ _ (by simp only [L.dm_add, hq, hd]), ok_bind, L.mul_mk,
    L.sub_mk _ _ _ _ (by simp only [L.dm_add, L.dm_sub, L.dm_neg, hq, hd]; abel), ok_bind, L.div_mk _ _ _ _ h2,
    ok_bind, L.add_mk _ _ _ _ (by simp only [L.dm_add, L.dm_neg, hq, hd]), ok_bind, L.div_mk _ _ _ _ h3, ok_bind]
  rw [L.density_mk, L.heat_mk]
  simp only [L.mul_mk]
  rw [L.div_mk _ _ _ _ hrc, ok_bind, L.div_mk _ _ _ _ hrc, ok_bind]
  rfl

/-- `_calculate_next_rndt` of the impulse response model when the efficacy is 1 -/
theorem calcNextRndt_one (mdl : IRM N XR) {p : IRM.TLParams N XR} (hp : mdl.getTwoLayerParameters R = .ok p)
    {lm : ℝ} (hl : p.lambda0.mag = .fin lm) (t1 t2 f : ℝ) :
    mdl.calcNextRndt R (.fin t1) (.fin t2) (.fin f) (.fin 1) = .ok (.fin (f - lm * (t1 + t2))) := by
  unfold IRM.calcNextRndt
  rw [hp, ok_bind]
  simp [hl, pure, Except.pure, bind, Except.bind]

/-- `_calculate_next_rndt` of the impulse response model in general; `err` is the unit check -/
theorem calcNextRndt_quant (mdl : IRM N XR) (uq1 uq2 ud1 ud2 ue : Units N) (hq : L.dm uq2 = L.dm uq1)
    (hd : L.dm ud2 = L.dm ud1) (hue : L.dm ue = 0) (q1 q2 d1 d2 e : ℝ)
    (h1 : 0 < q1) (h2 : 0 < q2) (h3 : 0 < d1) (hd2 : 0 < d2) (h4 : d1 ≠ d2) (h5 : 0 < e)
    (e1 : mdl.q1 = L.quant uq1 q1) (e2 : mdl.q2 = L.quant uq2 q2) (e3 : mdl.d1 = L.quant ud1 d1)
    (e4 : mdl.d2 = L.quant ud2 d2) (e5 : mdl.efficacy = L.quant ue e)
    (he : mdl.efficacyMag = .fin e) (t1 t2 f : ℝ) :
    let lm := Geo.invL q1 q2
    let h := Geo.invH q1 q2 d1 d2 e
    let C := Geo.invC q1 q2 d1 d2
    let D := Geo.invD q1 q2 d1 d2 e
    mdl.calcNextRndt R (.fin t1) (.fin t2) (.fin f) mdl.efficacyMag =
      if e = 1 then .ok (.fin (f - lm / L.sc (-uq1) * (t1 + t2)))
      else if uq2 + ue = R.cwm2 then .ok (.fin (f - lm / L.sc (-uq1) * (t1 + t2) -
          (e - 1) * (h / L.sc R.wm2c) *
            ((1 - Geo.phi1 C D lm e h) * t1 + (1 - Geo.phi2 C D lm e h) * t2)))
      else .error (.assertion "units should have come out as W/m^2") := by
  intro lm h C D
  have hL := Geo.invL_pos h1 h2
  have hCpos : 0 < C := Geo.invC_pos' h1 h2 h3 hd2
  have hDpos : 0 < D := Geo.invD_pos' h1 h2 h3 hd2 h4 h5
  have hHpos : 0 < h := Geo.invH_pos' h1 h2 h3 hd2 h4 h5
  have hrc : 0 < L.rho * L.cw := mul_pos L.rho_pos L.cw_pos
  have hTL := L.getTL_quant mdl uq1 uq2 ud1 ud2 ue hq hd hue q1 q2 d1 d2 e (by positivity) (by positivity)
    h5.ne' (by positivity) e1 e2 e3 e4 e5
  simp only at hTL
  rw [he]
  by_cases he1 : e = 1
  · rw [if_pos he1]
    subst he1
    rw [calcNextRndt_one mdl hTL (lm := lm / L.sc (-uq1)) rfl]
  · rw [if_neg he1]
    unfold IRM.calcNextRndt
    rw [hTL, ok_bind]
    have hneq : Arith.eq (XR.fin e) (Arith.ofNat 1) = false := by simp [he1]
    simp only [hneq, Bool.false_eq_true, if_false]
    have hud : ∀ a b : Units N, L.dm (a - b) = L.dm a - L.dm b := fun a b => L.dm_sub a b
    have hgeo := L.geoffroy_quant (ud1 + ud2 - (uq1 + ud2) - (rhoU R + cwU R))
      ((-uq1 + (ud1 + (-uq1 + uq1))) - ue - (rhoU R + cwU R)) (-uq1) ue
      ((-uq1 + (ud1 + (-uq1 + uq1))) - ue - (ud1 + (-uq1 + uq2)))
      (by simp only [L.dm_add, L.dm_sub, L.dm_neg, hq, hd, hue]; abel) hue
      (by simp only [L.dm_add, L.dm_sub, L.dm_neg, hq, hd, hue]; abel)
      (C / (L.rho * L.cw)) (D / (L.rho * L.cw)) lm e h (by positivity) (by positivity) hL h5 hHpos
    simp only at hgeo
    have hCC : C / (L.rho * L.cw) * L.cw * L.rho = C := by
      have := L.rho_pos.ne'; have := L.cw_pos.ne'; field_simp
    have hDD : D / (L.rho * L.cw) * L.cw * L.rho = D := by
      have := L.rho_pos.ne'; have := L.cw_pos.ne'; field_simp
    rw [hCC, hDD] at hgeo
    rw [hgeo, ok_bind]
    set g := geoUnits R (ud1 + ud2 - (uq1 + ud2) - (rhoU R + cwU R))
      ((-uq1 + (ud1 + (-uq1 + uq1))) - ue - (rhoU R + cwU R)) (-uq1) ue
      ((-uq1 + (ud1 + (-uq1 + uq1))) - ue - (ud1 + (-uq1 + uq2))) with hg
    have hphi : L.dm g.phi = 0 := by
      simp only [hg, geoUnits, L.dm_add, L.dm_sub, L.dm_neg, hq, hd, hue]; abel
    simp only [XR.ofNat_eq, Nat.cast_one]
    rw [L.nsub_mk _ _ _ hphi, ok_bind, L.nsub_mk _ _ _ hphi, ok_bind]
    have ht : ∀ t : ℝ, (⟨.fin t, R.degC⟩ : Qty N XR) = L.quant R.degC (t * L.sc R.degC) := by
      intro t; simp [quant, L.sc_ne]
    rw [ht, ht]
    simp only [L.mul_mk]
    rw [L.add_mk _ _ _ _ rfl, ok_bind]
    simp only [XR.fin_sub, L.muln_mk, L.mul_mk, quant_unit]
    have hunit : (-uq1 + (ud1 + (-uq1 + uq1)) - ue - (ud1 + (-uq1 + uq2)) + (0 + R.degC) = R.wm2) ↔
        uq2 + ue = R.cwm2 := by
      have hx : -uq1 + (ud1 + (-uq1 + uq1)) - ue - (ud1 + (-uq1 + uq2)) + (0 + R.degC) =
          R.degC - (uq2 + ue) := by abel
      rw [hx]
      show R.degC - (uq2 + ue) = R.wm2 ↔ uq2 + ue = R.degC - R.wm2
      constructor
      · intro hh; rw [← hh]; abel
      · intro hh; rw [hh]; abel
    by_cases hu : uq2 + ue = R.cwm2
    · rw [if_pos (hunit.mpr hu), if_pos hu]
      simp only [pure_eq_ok, ok_bind, quant_mag, XR.fin_sub, XR.fin_add, XR.fin_mul]
      congr 2
      congr 1
      have hsu : -uq1 + (ud1 + (-uq1 + uq1)) - ue - (ud1 + (-uq1 + uq2)) + (0 + R.degC) = R.wm2 := hunit.mpr hu
      rw [hsu]
      have hw : L.sc R.wm2c = L.sc R.wm2 / L.sc R.degC := by
        show L.sc (R.wm2 - u1 R.ddegC) = _
        rw [L.sc_sub]; rfl
      rw [hw]
      have := L.sc_ne R.wm2
      have := L.sc_ne R.degC
      field_simp
      ring
    · rw [if_neg (fun hh => hu (hunit.mp hh)), if_neg hu]
      rfl
end Registry.Lawful
end TwoLayer
