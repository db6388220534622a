import Verif.Proofs.Value
import Verif.Spec.Geoffroy

/-! # The Geoffroy parameters: real algebra, and evaluation of the code's formulas -/

set_option linter.unusedSimpArgs false
set_option linter.unusedSectionVars false

namespace TwoLayer

namespace Geo
variable {C D l e h : ℝ}

section pos
variable (hC : 0 < C) (hD : 0 < D) (hl : 0 < l) (he : 0 < e) (hh : 0 < h)
include hC hD hl he hh

theorem delta_eq : delta C D l e h = bStar C D l e h ^ 2 + 4 * e * h ^ 2 / (C * D) := by
  unfold delta b bStar; field_simp; ring

theorem delta_pos : 0 < delta C D l e h := by
  rw [delta_eq hC hD hl he hh]; positivity

theorem b_pos : 0 < b C D l e h := by unfold b; positivity

theorem sqrt_pos : 0 < Real.sqrt (delta C D l e h) := Real.sqrt_pos.mpr (delta_pos hC hD hl he hh)

theorem sq_sqrt : Real.sqrt (delta C D l e h) ^ 2 = delta C D l e h :=
  Real.sq_sqrt (delta_pos hC hD hl he hh).le

theorem sqrt_lt_b : Real.sqrt (delta C D l e h) < b C D l e h := by
  rw [Real.sqrt_lt' (b_pos hC hD hl he hh)]
  unfold delta
  have : 0 < 4 * l * h / (C * D) := by positivity
  linarith

theorem abs_bStar_lt : |bStar C D l e h| < Real.sqrt (delta C D l e h) := by
  rw [Real.lt_sqrt (abs_nonneg _), sq_abs, delta_eq hC hD hl he hh]
  have : 0 < 4 * e * h ^ 2 / (C * D) := by positivity
  linarith

theorem tau1_pos : 0 < tau1 C D l e h := by
  unfold tau1
  have := sqrt_lt_b hC hD hl he hh
  have h2 : 0 < b C D l e h - Real.sqrt (delta C D l e h) := by linarith
  positivity

theorem tau2_pos : 0 < tau2 C D l e h := by
  unfold tau2
  have := b_pos hC hD hl he hh
  have := sqrt_pos hC hD hl he hh
  positivity

theorem tau1_lt_tau2 : tau1 C D l e h < tau2 C D l e h := by
  unfold tau1 tau2
  have := sqrt_pos hC hD hl he hh
  have h2 : 0 < C * D / (2 * l * h) := by positivity
  nlinarith

theorem phi1_neg : phi1 C D l e h < 0 := by
  unfold phi1
  have := (abs_lt.mp (abs_bStar_lt hC hD hl he hh)).2
  have h2 : 0 < C / (2 * e * h) := by positivity
  nlinarith

theorem phi2_pos : 0 < phi2 C D l e h := by
  unfold phi2
  have := (abs_lt.mp (abs_bStar_lt hC hD hl he hh)).1
  have h2 : 0 < C / (2 * e * h) := by positivity
  have h3 : 0 < bStar C D l e h + Real.sqrt (delta C D l e h) := by linarith
  positivity

theorem phi_sub_pos : 0 < phi2 C D l e h - phi1 C D l e h := by
  have := phi1_neg hC hD hl he hh
  have := phi2_pos hC hD hl he hh
  linarith

theorem phi_sub : phi2 C D l e h - phi1 C D l e h = C * Real.sqrt (delta C D l e h) / (e * h) := by
  unfold phi1 phi2; field_simp; ring

theorem q1_pos : 0 < q1 C D l e h := by
  unfold q1
  have := tau1_pos hC hD hl he hh
  have := phi2_pos hC hD hl he hh
  have := phi_sub_pos hC hD hl he hh
  positivity

theorem q2_pos : 0 < q2 C D l e h := by
  unfold q2
  have := tau2_pos hC hD hl he hh
  have := phi1_neg hC hD hl he hh
  have := phi_sub_pos hC hD hl he hh
  apply div_pos _ (by positivity)
  nlinarith

theorem tau1_mul_tau2 : tau1 C D l e h * tau2 C D l e h = C * D / (l * h) := by
  have hs := sq_sqrt hC hD hl he hh
  unfold delta at hs
  unfold tau1 tau2
  have : (b C D l e h - Real.sqrt (delta C D l e h)) * (b C D l e h + Real.sqrt (delta C D l e h)) =
      4 * l * h / (C * D) := by
    unfold delta
    linear_combination -hs
  calc _ = (C * D / (2 * l * h)) ^ 2 *
      ((b C D l e h - Real.sqrt (delta C D l e h)) * (b C D l e h + Real.sqrt (delta C D l e h))) := by ring
    _ = _ := by rw [this]; field_simp; ring

theorem phi1_mul_phi2 : phi1 C D l e h * phi2 C D l e h = -(C / (e * D)) := by
  have hs := sq_sqrt hC hD hl he hh
  rw [delta_eq hC hD hl he hh] at hs
  unfold phi1 phi2
  have : (bStar C D l e h - Real.sqrt (delta C D l e h)) * (bStar C D l e h + Real.sqrt (delta C D l e h)) =
      -(4 * e * h ^ 2 / (C * D)) := by
    rw [delta_eq hC hD hl he hh]
    linear_combination -hs
  calc _ = (C / (2 * e * h)) ^ 2 *
      ((bStar C D l e h - Real.sqrt (delta C D l e h)) * (bStar C D l e h + Real.sqrt (delta C D l e h))) := by ring
    _ = _ := by rw [this]; field_simp; ring

theorem tau1_add_tau2 : tau1 C D l e h + tau2 C D l e h = (C * h + (l + e * h) * D) / (l * h) := by
  unfold tau1 tau2 b; field_simp; ring

theorem phi1_add_phi2 : phi1 C D l e h + phi2 C D l e h = (l + e * h) / (e * h) - C / (e * D) := by
  unfold phi1 phi2 bStar; field_simp; ring

/-- the modes: upper-layer equation -/
theorem tau1_phi1 : C + phi1 C D l e h * e * D = l * tau1 C D l e h := by
  unfold phi1 tau1 b bStar; field_simp; ring

theorem tau2_phi2 : C + phi2 C D l e h * e * D = l * tau2 C D l e h := by
  unfold phi2 tau2 b bStar; field_simp; ring

/-- a mode `(1, φ)` decaying with time `τ` solves the homogeneous lower-layer equation -/
theorem mode_lower1 : phi1 C D l e h * (h * tau1 C D l e h - D) = h * tau1 C D l e h := by
  have h1 := tau1_phi1 hC hD hl he hh
  have hp := phi1_mul_phi2 hC hD hl he hh
  have ha := phi1_add_phi2 hC hD hl he hh
  -- φ is a root of φ² - (φ1+φ2) φ + φ1 φ2 = 0
  have hroot : phi1 C D l e h ^ 2 - ((l + e * h) / (e * h) - C / (e * D)) * phi1 C D l e h - C / (e * D) = 0 := by
    rw [← ha]; linear_combination -hp
  have ht : tau1 C D l e h = (C + phi1 C D l e h * e * D) / l := by field_simp; linarith
  rw [ht]
  field_simp at hroot ⊢
  linear_combination hroot

theorem mode_lower2 : phi2 C D l e h * (h * tau2 C D l e h - D) = h * tau2 C D l e h := by
  have h1 := tau2_phi2 hC hD hl he hh
  have hp := phi1_mul_phi2 hC hD hl he hh
  have ha := phi1_add_phi2 hC hD hl he hh
  have hroot : phi2 C D l e h ^ 2 - ((l + e * h) / (e * h) - C / (e * D)) * phi2 C D l e h - C / (e * D) = 0 := by
    rw [← ha]; linear_combination -hp
  have ht : tau2 C D l e h = (C + phi2 C D l e h * e * D) / l := by field_simp; linarith
  rw [ht]
  field_simp at hroot ⊢
  linear_combination hroot

/-- the modes: upper-layer equation `C = (l + e h (1 - φ)) τ` -/
theorem mode_upper1 : (l + e * h * (1 - phi1 C D l e h)) * tau1 C D l e h = C := by
  have h1 := tau1_phi1 hC hD hl he hh
  have h2 := mode_lower1 hC hD hl he hh
  linear_combination -h1 + (-e) * h2

theorem mode_upper2 : (l + e * h * (1 - phi2 C D l e h)) * tau2 C D l e h = C := by
  have h1 := tau2_phi2 hC hD hl he hh
  have h2 := mode_lower2 hC hD hl he hh
  linear_combination -h1 + (-e) * h2

/-- unit response of the upper layer -/
theorem q_over_tau : q1 C D l e h / tau1 C D l e h + q2 C D l e h / tau2 C D l e h = 1 / C := by
  have h1 := (tau1_pos hC hD hl he hh).ne'
  have h2 := (tau2_pos hC hD hl he hh).ne'
  have h3 := (phi_sub_pos hC hD hl he hh).ne'
  unfold q1 q2; field_simp; ring

theorem phi_q_over_tau : phi1 C D l e h * q1 C D l e h / tau1 C D l e h +
    phi2 C D l e h * q2 C D l e h / tau2 C D l e h = 0 := by
  have h1 := (tau1_pos hC hD hl he hh).ne'
  have h2 := (tau2_pos hC hD hl he hh).ne'
  have h3 := (phi_sub_pos hC hD hl he hh).ne'
  unfold q1 q2; field_simp; ring

theorem q_sum : q1 C D l e h + q2 C D l e h = 1 / l := by
  have h3 := (phi_sub_pos hC hD hl he hh).ne'
  have e1 := tau1_phi1 hC hD hl he hh
  have e2 := tau2_phi2 hC hD hl he hh
  unfold q1 q2
  rw [← add_div, div_eq_div_iff (by positivity) hl.ne']
  linear_combination (-phi2 C D l e h) * e1 + (phi1 C D l e h) * e2

theorem phi_q_sum : phi1 C D l e h * q1 C D l e h + phi2 C D l e h * q2 C D l e h = 1 / l := by
  have h3 := (phi_sub_pos hC hD hl he hh).ne'
  have e1 := tau1_phi1 hC hD hl he hh
  have e2 := tau2_phi2 hC hD hl he hh
  have hp := phi1_mul_phi2 hC hD hl he hh
  have key : phi1 C D l e h * phi2 C D l e h * (tau1 C D l e h - tau2 C D l e h) * l =
      C * (phi2 C D l e h - phi1 C D l e h) := by
    have : (tau1 C D l e h - tau2 C D l e h) * l = e * D * (phi1 C D l e h - phi2 C D l e h) := by
      linear_combination -e1 + e2
    rw [mul_assoc, this, hp]; field_simp; ring
  unfold q1 q2
  rw [eq_div_iff hl.ne']
  field_simp
  linear_combination key

theorem a1_eq : a1 C D l e h = l * q1 C D l e h := by unfold a1 q1; ring
theorem a2_eq : a2 C D l e h = l * q2 C D l e h := by unfold a2 q2; ring

/-- `q1 τ1 + q2 τ2 = (C + e D) / l²` -/
theorem q_tau : q1 C D l e h * tau1 C D l e h + q2 C D l e h * tau2 C D l e h = (C + e * D) / l ^ 2 := by
  have e1 := tau1_phi1 hC hD hl he hh
  have e2 := tau2_phi2 hC hD hl he hh
  have s := q_sum hC hD hl he hh
  have p := phi_q_sum hC hD hl he hh
  have : (q1 C D l e h * tau1 C D l e h + q2 C D l e h * tau2 C D l e h) * l = (C + e * D) * (1 / l) := by
    linear_combination (-q1 C D l e h) * e1 + (-q2 C D l e h) * e2 + C * s + e * D * p
  field_simp at this ⊢
  linear_combination this

/-- `q1 τ2 + q2 τ1 = D / (l h)` -/
theorem q_tau_cross : q1 C D l e h * tau2 C D l e h + q2 C D l e h * tau1 C D l e h = D / (l * h) := by
  have h1 := (tau1_pos hC hD hl he hh).ne'
  have h2 := (tau2_pos hC hD hl he hh).ne'
  have hq := q_over_tau hC hD hl he hh
  have ht := tau1_mul_tau2 hC hD hl he hh
  have : q1 C D l e h * tau2 C D l e h + q2 C D l e h * tau1 C D l e h =
      (q1 C D l e h / tau1 C D l e h + q2 C D l e h / tau2 C D l e h) * (tau1 C D l e h * tau2 C D l e h) := by
    field_simp
  rw [this, hq, ht]; field_simp
end pos

section inv'
variable {q1' q2' d1 d2 : ℝ} (h1 : 0 < q1') (h2 : 0 < q2') (hd1 : 0 < d1) (hd2 : 0 < d2) (hne : d1 ≠ d2) (he : 0 < e)
include h1 h2
theorem invL_pos : 0 < invL q1' q2' := by unfold invL; positivity
include hd1 hd2
theorem invC_pos' : 0 < invC q1' q2' d1 d2 := by unfold invC; positivity
include hne he
theorem invD_pos' : 0 < invD q1' q2' d1 d2 e := by
  unfold invD invL invC
  apply div_pos _ he
  have : 1 / (q1' + q2') * (d1 * (1 / (q1' + q2') * q1') + d2 * (1 / (q1' + q2') * q2')) -
      d1 * d2 / (q1' * d2 + q2' * d1) =
      q1' * q2' * (d2 - d1) ^ 2 / ((q1' + q2') ^ 2 * (q1' * d2 + q2' * d1)) := by
    field_simp; ring
  rw [this]
  have : 0 < (d2 - d1) ^ 2 := by have := sub_ne_zero.mpr hne.symm; positivity
  positivity
theorem invH_pos' : 0 < invH q1' q2' d1 d2 e := by
  have := invD_pos' h1 h2 hd1 hd2 hne he
  have := invL_pos h1 h2
  unfold invH; positivity
end inv'

section inv
variable {q1' q2' d1 d2 : ℝ} (h1 : 0 < q1') (h2 : 0 < q2') (hd1 : 0 < d1) (hd : d1 < d2) (he : 0 < e)
include h1 h2 hd1 hd
theorem invC_pos : 0 < invC q1' q2' d1 d2 := invC_pos' h1 h2 hd1 (hd1.trans hd)
include he
theorem invD_pos : 0 < invD q1' q2' d1 d2 e := invD_pos' h1 h2 hd1 (hd1.trans hd) hd.ne he
theorem invH_pos : 0 < invH q1' q2' d1 d2 e := invH_pos' h1 h2 hd1 (hd1.trans hd) hd.ne he

/-- round trip impulse response → two layer → impulse response -/
theorem round_trip_ir :
    let C := invC q1' q2' d1 d2
    let D := invD q1' q2' d1 d2 e
    let l := invL q1' q2'
    let h := invH q1' q2' d1 d2 e
    tau1 C D l e h = d1 ∧ tau2 C D l e h = d2 ∧ q1 C D l e h = q1' ∧ q2 C D l e h = q2' := by
  intro C D l h
  have hd2 : 0 < d2 := by linarith
  have hC : 0 < C := invC_pos h1 h2 hd1 hd
  have hD : 0 < D := invD_pos h1 h2 hd1 hd he
  have hl : 0 < l := invL_pos h1 h2
  have hh : 0 < h := invH_pos h1 h2 hd1 hd he
  have hlq : l * (q1' + q2') = 1 := by simp only [l, invL]; field_simp
  have hCq : C * (q1' * d2 + q2' * d1) = d1 * d2 := by simp only [C, invC]; field_simp
  have hDe : D * e = l * (d1 * (l * q1') + d2 * (l * q2')) - C := by
    simp only [D, invD]; rw [div_mul_cancel₀ _ he.ne']
  have hden : 0 < d1 * (l * q2') + d2 * (l * q1') := by positivity
  have hhD : h * (d1 * (l * q2') + d2 * (l * q1')) = D := by
    simp only [h, invH]
    exact div_mul_cancel₀ _ hden.ne'
  have hprod : tau1 C D l e h * tau2 C D l e h = d1 * d2 := by
    rw [tau1_mul_tau2 hC hD hl he hh, div_eq_iff (by positivity), ← hhD, ← hCq]
    ring
  have hsum : tau1 C D l e h + tau2 C D l e h = d1 + d2 := by
    rw [tau1_add_tau2 hC hD hl he hh, div_eq_iff (by positivity)]
    have : (l + e * h) * D = l * D + h * (D * e) := by ring
    rw [this, hDe]
    have e1 : l * D = l * (h * (d1 * (l * q2') + d2 * (l * q1'))) := by rw [hhD]
    rw [e1]
    linear_combination (l * h * (d1 + d2)) * hlq
  have hlt := tau1_lt_tau2 hC hD hl he hh
  have ht1 : tau1 C D l e h = d1 := by
    have hz : (tau1 C D l e h - d1) * (tau1 C D l e h - d2) = 0 := by
      linear_combination (tau1 C D l e h) * hsum - hprod
    rcases mul_eq_zero.mp hz with hz | hz
    · linarith
    · exfalso; linarith
  have ht2 : tau2 C D l e h = d2 := by linarith
  have hs := q_sum hC hD hl he hh
  have hqt := q_tau hC hD hl he hh
  rw [ht1, ht2] at hqt
  have hs' : q1 C D l e h + q2 C D l e h = q1' + q2' := by
    rw [hs]; field_simp; linarith
  have hqt' : q1 C D l e h * d1 + q2 C D l e h * d2 = q1' * d1 + q2' * d2 := by
    rw [hqt, show C + e * D = l ^ 2 * (q1' * d1 + q2' * d2) by linear_combination hDe]
    field_simp
  have hne : d2 - d1 ≠ 0 := by linarith
  have hq2 : q2 C D l e h = q2' := by
    have : (d2 - d1) * (q2 C D l e h - q2') = 0 := by linear_combination hqt' - d1 * hs'
    rcases mul_eq_zero.mp this with h | h
    · exact absurd h hne
    · linarith
  exact ⟨ht1, ht2, by linarith, hq2⟩
end inv

/-- round trip two layer → impulse response → two layer -/
theorem round_trip_tl (hC : 0 < C) (hD : 0 < D) (hl : 0 < l) (he : 0 < e) (hh : 0 < h) :
    let p1 := q1 C D l e h
    let p2 := q2 C D l e h
    let t1 := tau1 C D l e h
    let t2 := tau2 C D l e h
    invL p1 p2 = l ∧ invC p1 p2 t1 t2 = C ∧ invD p1 p2 t1 t2 e = D ∧ invH p1 p2 t1 t2 e = h := by
  intro p1 p2 t1 t2
  have hs : p1 + p2 = 1 / l := q_sum hC hD hl he hh
  have ht : t1 * t2 = C * D / (l * h) := tau1_mul_tau2 hC hD hl he hh
  have hx : p1 * t2 + p2 * t1 = D / (l * h) := q_tau_cross hC hD hl he hh
  have hq : p1 * t1 + p2 * t2 = (C + e * D) / l ^ 2 := q_tau hC hD hl he hh
  have e1 : invL p1 p2 = l := by unfold invL; rw [hs]; field_simp
  have e2 : invC p1 p2 t1 t2 = C := by unfold invC; rw [ht, hx]; field_simp
  have e3 : invD p1 p2 t1 t2 e = D := by
    unfold invD; rw [e1, e2, show l * (t1 * (l * p1) + t2 * (l * p2)) = l ^ 2 * (p1 * t1 + p2 * t2) by ring, hq]
    field_simp; ring
  refine ⟨e1, e2, e3, ?_⟩
  unfold invH
  rw [e1, e3, show t1 * (l * p2) + t2 * (l * p1) = l * (p1 * t2 + p2 * t1) by ring, hx]
  field_simp
end Geo

theorem ok_bind {ε β γ : Type} (a : β) (f : β → Except ε γ) : ((Except.ok a : Except ε β) >>= f) = f a := rfl
theorem pure_eq_ok {ε β : Type} (a : β) : (pure a : Except ε β) = .ok a := rfl

variable {N : Type} [Fintype N] [DecidableEq N] {R : Registry N XR}

/-- units of the Geoffroy parameters computed from inputs with units `uu ul um ue uh` -/
structure GeoUnits (N : Type) where
  C : Units N
  D : Units N
  b : Units N
  tau : Units N
  phi : Units N

/-- units of the Geoffroy parameters computed from inputs with units `uu ul um ue uh` -/
def geoUnits (R : Registry N XR) (uu ul um ue uh : Units N) : GeoUnits N :=
  let C := uu + Registry.Lawful.cwU R + Registry.Lawful.rhoU R
  let D := ul + Registry.Lawful.cwU R + Registry.Lawful.rhoU R
  { C, D, b := um - C, tau := (C + D - (um + uh)) + (um - C), phi := (C - (ue + uh)) + (um - C) }

namespace Registry.Lawful
variable (L : R.Lawful)

theorem geoffroy_quant (uu ul um ue uh : Units N) (hul : L.dm ul = L.dm uu) (hue : L.dm ue = 0)
    (huh : L.dm uh = L.dm um) (u l m e h : ℝ)
    (hu : 0 < u) (hl : 0 < l) (hm : 0 < m) (he : 0 < e) (hh : 0 < h) :
    let C := u * L.cw * L.rho
    let D := l * L.cw * L.rho
    let g := geoUnits R uu ul um ue uh
    geoffroy R (L.quant uu u) (L.quant ul l) (L.quant um m) (L.quant ue e) (L.quant uh h) = .ok {
      C := L.quant g.C C
      CD := L.quant g.D D
      b := L.quant g.b (Geo.b C D m e h)
      bStar := L.quant g.b (Geo.bStar C D m e h)
      delta := L.quant (g.b + g.b) (Geo.delta C D m e h)
      tau1 := L.quant g.tau (Geo.tau1 C D m e h)
      tau2 := L.quant g.tau (Geo.tau2 C D m e h)
      phi1 := L.quant g.phi (Geo.phi1 C D m e h)
      phi2 := L.quant g.phi (Geo.phi2 C D m e h)
      a1 := L.quant (g.tau + g.phi + um - (g.C + g.phi)) (Geo.a1 C D m e h)
      a2 := L.quant (g.tau + g.phi + um - (g.C + g.phi)) (Geo.a2 C D m e h) } := by
  intro C D g
  have hC : 0 < C := by have := L.cw_pos; have := L.rho_pos; positivity
  have hD : 0 < D := by have := L.cw_pos; have := L.rho_pos; positivity
  have hps := (Geo.phi_sub_pos hC hD hm he hh)
  have hdel := (Geo.delta_pos hC hD hm he hh)
  have d1 : L.dm (ue + uh) = L.dm um := by rw [L.dm_add, hue, huh, zero_add]
  have d2 : L.dm (uh - g.D) = L.dm (um - g.C) := by
    simp only [g, geoUnits, L.dm_sub, L.dm_add, huh, hul]
  have d3 : L.dm (um + uh - (g.C + g.D)) = L.dm (um - g.C + (um - g.C)) := by
    simp only [g, geoUnits, L.dm_sub, L.dm_add, huh, hul]; abel
  have d4 : L.dm ((1 / 2 : ℚ) • (um - g.C + (um - g.C))) = L.dm (um - g.C) := by
    simp only [L.dm_smul, L.dm_add]
    rw [← two_smul ℚ, smul_smul]; norm_num
  unfold geoffroy
  rw [L.heat_mk, L.density_mk]
  simp only [L.mul_mk]
  rw [show uu + cwU R + rhoU R = g.C from rfl, show ul + cwU R + rhoU R = g.D from rfl,
    show u * L.cw * L.rho = C from rfl, show l * L.cw * L.rho = D from rfl]
  rw [L.add_mk _ _ _ _ d1, ok_bind, L.div_mk _ _ _ _ hC.ne', ok_bind, L.div_mk _ _ _ _ hD.ne', ok_bind,
    L.add_mk _ _ _ _ d2, ok_bind, L.sub_mk _ _ _ _ d2, ok_bind]
  simp only [XR.ofNat_eq, L.nmul_mk, L.mul_mk, L.sq_mk]
  rw [L.div_mk _ _ _ _ (mul_pos hC hD).ne', ok_bind, L.sub_mk _ _ _ _ d3, ok_bind,
    L.div_mk _ _ _ _ (by push_cast; positivity), ok_bind]
  have hdelta : ((m + e * h) / C + h / D) * ((m + e * h) / C + h / D) - ((4 : ℕ) : ℝ) * m * h / (C * D) =
      Geo.delta C D m e h := by unfold Geo.delta Geo.b; push_cast; ring
  rw [hdelta, L.sqrt_mk _ _ hdel.le, ok_bind, L.sub_mk _ _ _ _ d4, ok_bind, L.add_mk _ _ _ _ d4, ok_bind]
  simp only [L.mul_mk]
  rw [L.div_mk _ _ _ _ (by push_cast; positivity), ok_bind, L.sub_mk _ _ _ _ d4, ok_bind,
    L.add_mk _ _ _ _ d4, ok_bind]
  simp only [L.mul_mk]
  rw [L.sub_mk _ _ _ _ rfl, ok_bind]
  simp only [L.mul_mk, L.neg_mk]
  have ep2 : C / (((2 : ℕ) : ℝ) * e * h) * ((m + e * h) / C - h / D + Real.sqrt (Geo.delta C D m e h)) =
      Geo.phi2 C D m e h := by unfold Geo.phi2 Geo.bStar; push_cast; ring
  have ep1 : C / (((2 : ℕ) : ℝ) * e * h) * ((m + e * h) / C - h / D - Real.sqrt (Geo.delta C D m e h)) =
      Geo.phi1 C D m e h := by unfold Geo.phi1 Geo.bStar; push_cast; ring
  have et1 : C * D / (((2 : ℕ) : ℝ) * m * h) * ((m + e * h) / C + h / D - Real.sqrt (Geo.delta C D m e h)) =
      Geo.tau1 C D m e h := by unfold Geo.tau1 Geo.b; push_cast; ring
  have et2 : C * D / (((2 : ℕ) : ℝ) * m * h) * ((m + e * h) / C + h / D + Real.sqrt (Geo.delta C D m e h)) =
      Geo.tau2 C D m e h := by unfold Geo.tau2 Geo.b; push_cast; ring
  rw [ep1, ep2, et1, et2, L.div_mk _ _ _ _ (mul_pos hC hps).ne', ok_bind, L.div_mk _ _ _ _ (mul_pos hC hps).ne',
    ok_bind]
  rfl

end Registry.Lawful
end TwoLayer
