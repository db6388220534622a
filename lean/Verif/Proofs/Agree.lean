import Verif.Proofs.ConvertPhys
import Verif.Proofs.IRMath

/-! # The two-layer equations and the impulse response equations are the same system -/

set_option linter.unusedSimpArgs false
set_option linter.unusedSectionVars false

namespace TwoLayer

/-! ## Euler against exponential -/

theorem exp_neg_quad {x : ℝ} (hx : 0 ≤ x) : Real.exp (-x) ≤ 1 - x + x ^ 2 / 2 := by
  have h1 := Real.quadratic_le_exp_of_nonneg hx
  have h2 : 0 < 1 + x + x ^ 2 / 2 := by positivity
  have h3 : 0 < 1 - x + x ^ 2 / 2 := by nlinarith [sq_nonneg (x - 1)]
  have h4 : Real.exp (-x) * Real.exp x = 1 := by rw [← Real.exp_add]; simp
  have h5 : Real.exp (-x) * (1 + x + x ^ 2 / 2) ≤ 1 := by
    have := mul_le_mul_of_nonneg_left h1 (Real.exp_pos (-x)).le
    linarith
  have h6 : 1 ≤ (1 - x + x ^ 2 / 2) * (1 + x + x ^ 2 / 2) := by
    have : (1 - x + x ^ 2 / 2) * (1 + x + x ^ 2 / 2) = 1 + x ^ 4 / 4 := by ring
    rw [this]; have : 0 ≤ x ^ 4 := by positivity
    linarith
  exact le_of_mul_le_mul_right (h5.trans h6) h2

open TLPar in
theorem eul_boxSol {q τ dt M : ℝ} {F : ℕ → ℝ} (hq : 0 ≤ q) (hτ : 0 < τ) (hdt : 0 ≤ dt) (hle : dt ≤ τ) {k : ℕ}
    (hM : 0 ≤ M) (hF : ∀ i < k, |F i| ≤ M) : ∀ i ≤ k, |eul q τ dt F i - boxSol q τ dt F i| ≤ dt * M * (q / τ) := by
  intro i
  have hx0 : 0 ≤ dt / τ := by positivity
  have hx1 : dt / τ ≤ 1 := (div_le_one hτ).mpr hle
  induction i with
  | zero => intro _; simp [eul, boxSol]; positivity
  | succ i ih =>
    intro hi
    have ih := ih (by omega)
    rw [eul, boxSol_succ]
    have hb := boxSol_bounds (F := F) hq hτ hdt (neg_nonpos.mpr hM) hM (k := k)
      (fun i hi => abs_le.mp (hF i hi)) i (by omega)
    have hFi := abs_le.mp (hF i (by omega))
    set x := dt / τ with hx
    set y := boxSol q τ dt F i
    set z := eul q τ dt F i
    have he1 : 0 ≤ Real.exp (-x) - (1 - x) := by linarith [Real.add_one_le_exp (-x)]
    have he2 : Real.exp (-x) - (1 - x) ≤ x ^ 2 / 2 := by linarith [exp_neg_quad hx0]
    have hg : |q * F i - y| ≤ 2 * (q * M) := by
      rw [abs_le]
      have := mul_le_mul_of_nonneg_left hFi.1 hq
      have := mul_le_mul_of_nonneg_left hFi.2 hq
      constructor <;> linarith
    have hB : dt * M * (q / τ) = q * M * x := by rw [hx]; field_simp
    rw [hB] at ih ⊢
    have hid : z + x * (q * F i - z) - (q * F i + (y - q * F i) * Real.exp (-x)) =
        (1 - x) * (z - y) + (q * F i - y) * (Real.exp (-x) - (1 - x)) := by ring
    rw [hid]
    have hqM : 0 ≤ q * M := mul_nonneg hq hM
    calc |(1 - x) * (z - y) + (q * F i - y) * (Real.exp (-x) - (1 - x))|
        ≤ |(1 - x) * (z - y)| + |(q * F i - y) * (Real.exp (-x) - (1 - x))| := abs_add_le _ _
      _ = (1 - x) * |z - y| + |q * F i - y| * (Real.exp (-x) - (1 - x)) := by
          rw [abs_mul, abs_mul, abs_of_nonneg he1, abs_of_nonneg (by linarith : 0 ≤ 1 - x)]
      _ ≤ (1 - x) * (q * M * x) + 2 * (q * M) * (x ^ 2 / 2) := by
          apply add_le_add
          · exact mul_le_mul_of_nonneg_left ih (by linarith)
          · exact mul_le_mul hg he2 he1 (by positivity)
      _ = q * M * x := by ring

theorem boxSol_time {q d dt c : ℝ} (hc : c ≠ 0) (F : ℕ → ℝ) (i : ℕ) : boxSol q (d / c) (dt / c) F i = boxSol q d dt F i := by
  induction i with
  | zero => rfl
  | succ i ih => rw [boxSol_succ, boxSol_succ, ih, div_div_div_cancel_right₀ hc]

namespace TLPar
variable {p : TLPar}

theorem toIR_T1 (F : ℕ → ℝ) (i : ℕ) : p.toIR.T1 F i = boxSol p.q1 p.tau1 p.dt F i := boxSol_time secPerYr_pos.ne' F i
theorem toIR_T2 (F : ℕ → ℝ) (i : ℕ) : p.toIR.T2 F i = boxSol p.q2 p.tau2 p.dt F i := boxSol_time secPerYr_pos.ne' F i

theorem agree {M : ℝ} (hp : p.Pos) (ha : p.a = 0) (hdt : p.dt ≤ p.tau1) {F : ℕ → ℝ} {k : ℕ}
    (hF : ∀ i < k, |F i| ≤ M) (hM : 0 ≤ M) (i : ℕ) (hi : i ≤ k) :
    |p.T F i - (p.toIR.T1 F i + p.toIR.T2 F i)| ≤ p.dt * M / p.C ∧
    |p.TD F i - (p.phi1 * p.toIR.T1 F i + p.phi2 * p.toIR.T2 F i)| ≤
      p.dt * M * (|p.phi1| * (p.q1 / p.tau1) + |p.phi2| * (p.q2 / p.tau2)) ∧
    |(p.T F i - p.TD F i) - ((p.toIR.T1 F i + p.toIR.T2 F i) - (p.phi1 * p.toIR.T1 F i + p.phi2 * p.toIR.T2 F i))| ≤
      p.dt * M * (|1 - p.phi1| * (p.q1 / p.tau1) + |1 - p.phi2| * (p.q2 / p.tau2)) := by
  obtain ⟨h1, h2⟩ := modes hp ha F i
  rw [h1, h2, toIR_T1, toIR_T2]
  have e1 := eul_boxSol hp.q1_pos.le hp.tau1_pos hp.dt.le hdt hM hF i hi
  have e2 := eul_boxSol hp.q2_pos.le hp.tau2_pos hp.dt.le (hdt.trans hp.tau_lt.le) hM hF i hi
  have s1 : p.q1 / p.tau1 + p.q2 / p.tau2 = 1 / p.C := Geo.q_over_tau hp.C hp.D hp.l hp.e hp.h
  set y1 := boxSol p.q1 p.tau1 p.dt F i
  set y2 := boxSol p.q2 p.tau2 p.dt F i
  set z1 := eul p.q1 p.tau1 p.dt F i
  set z2 := eul p.q2 p.tau2 p.dt F i
  have gen : ∀ c1 c2 : ℝ, |c1 * (z1 - y1) + c2 * (z2 - y2)| ≤
      p.dt * M * (|c1| * (p.q1 / p.tau1) + |c2| * (p.q2 / p.tau2)) := by
    intro c1 c2
    calc |c1 * (z1 - y1) + c2 * (z2 - y2)| ≤ |c1 * (z1 - y1)| + |c2 * (z2 - y2)| := abs_add_le _ _
      _ = |c1| * |z1 - y1| + |c2| * |z2 - y2| := by rw [abs_mul, abs_mul]
      _ ≤ |c1| * (p.dt * M * (p.q1 / p.tau1)) + |c2| * (p.dt * M * (p.q2 / p.tau2)) :=
        add_le_add (mul_le_mul_of_nonneg_left e1 (abs_nonneg _)) (mul_le_mul_of_nonneg_left e2 (abs_nonneg _))
      _ = _ := by ring
  refine ⟨?_, ?_, ?_⟩
  · have := gen 1 1
    rw [abs_one, one_mul, one_mul, one_mul, one_mul, s1] at this
    rw [show z1 + z2 - (y1 + y2) = z1 - y1 + (z2 - y2) by ring, div_eq_mul_one_div]
    exact this
  · have := gen p.phi1 p.phi2
    rw [show p.phi1 * z1 + p.phi2 * z2 - (p.phi1 * y1 + p.phi2 * y2) = p.phi1 * (z1 - y1) + p.phi2 * (z2 - y2) by ring]
    exact this
  · have := gen (1 - p.phi1) (1 - p.phi2)
    rw [show (z1 + z2 - (p.phi1 * z1 + p.phi2 * z2)) - (y1 + y2 - (p.phi1 * y1 + p.phi2 * y2)) =
      (1 - p.phi1) * (z1 - y1) + (1 - p.phi2) * (z2 - y2) by ring]
    exact this

/-- the constant in the heat uptake bound -/
noncomputable def uptakeConst (p : TLPar) : ℝ :=
  p.l / p.C + |p.e - 1| * p.h * (|1 - p.phi1| * (p.q1 / p.tau1) + |1 - p.phi2| * (p.q2 / p.tau2))

theorem toIR_l (hp : p.Pos) (ha : p.a = 0) : p.toIR.l = p.l := by
  have := congrArg TLPar.l (hp.round_trip ha); exact this

theorem toIR_h (hp : p.Pos) (ha : p.a = 0) : p.toIR.h = p.h ∧ p.toIR.phi1 = p.phi1 ∧ p.toIR.phi2 = p.phi2 := by
  have hr := hp.round_trip ha
  have hS := secPerYr_pos
  have hl := toIR_l hp ha
  have hh : p.toIR.h = p.h := by
    have h1 := congrArg TLPar.h hr
    have h2 := Geo.invH_scale (q1 := p.toIR.q1) (q2 := p.toIR.q2) (d1 := p.toIR.d1) (d2 := p.toIR.d2) (e := p.toIR.e)
      one_ne_zero hS.ne'
    simp only [mul_one, div_one] at h2
    rw [← h1]; exact h2.symm
  have hC := congrArg TLPar.C hr
  have hD := congrArg TLPar.D hr
  have h2 := Geo.invC_scale (q1 := p.toIR.q1) (q2 := p.toIR.q2) (d1 := p.toIR.d1) (d2 := p.toIR.d2)
      one_ne_zero hS.ne'
  have h3 := Geo.invD_scale (q1 := p.toIR.q1) (q2 := p.toIR.q2) (d1 := p.toIR.d1) (d2 := p.toIR.d2) (e := p.toIR.e)
      one_ne_zero hS.ne'
  simp only [mul_one, div_one] at h2 h3
  have hC' : p.C = secPerYr * Geo.invC p.toIR.q1 p.toIR.q2 p.toIR.d1 p.toIR.d2 := by rw [← h2]; exact hC.symm
  have hD' : p.D = secPerYr * Geo.invD p.toIR.q1 p.toIR.q2 p.toIR.d1 p.toIR.d2 p.toIR.e := by rw [← h3]; exact hD.symm
  have c0 : Geo.invC p.toIR.q1 p.toIR.q2 p.toIR.d1 p.toIR.d2 ≠ 0 := by
    intro h0; rw [h0, mul_zero] at hC'; exact hp.C.ne' hC'
  have d0 : Geo.invD p.toIR.q1 p.toIR.q2 p.toIR.d1 p.toIR.d2 p.toIR.e ≠ 0 := by
    intro h0; rw [h0, mul_zero] at hD'; exact hp.D.ne' hD'
  refine ⟨hh, ?_, ?_⟩
  · unfold IRPar.phi1 TLPar.phi1
    rw [hC', hD', hl, hh]
    have := Geo.phi1_scale (r := secPerYr) (s := 1) (l := p.l) (e := p.toIR.e) (h := p.h) hS one_pos c0 d0 hp.e.ne' hp.h.ne'
    rw [one_mul, one_mul] at this
    exact this.symm
  · unfold IRPar.phi2 TLPar.phi2
    rw [hC', hD', hl, hh]
    have := Geo.phi2_scale (r := secPerYr) (s := 1) (l := p.l) (e := p.toIR.e) (h := p.h) hS one_pos c0 d0 hp.e.ne' hp.h.ne'
    rw [one_mul, one_mul] at this
    exact this.symm

theorem agree_uptake {M : ℝ} (hp : p.Pos) (ha : p.a = 0) (hdt : p.dt ≤ p.tau1) {F : ℕ → ℝ} {k : ℕ}
    (hF : ∀ i < k, |F i| ≤ M) (hM : 0 ≤ M) (i : ℕ) (hi : i ≤ k + 1) :
    |p.U F i - p.toIR.U 1 F i| ≤ p.uptakeConst * (p.dt * M) := by
  have hK : 0 ≤ p.uptakeConst * (p.dt * M) := by
    have := hp.C; have := hp.l; have := hp.h; have := hp.dt; have := hp.q1_pos; have := hp.q2_pos
    have := hp.tau1_pos; have := hp.tau2_pos
    unfold uptakeConst; positivity
  cases i with
  | zero => simpa [TLPar.U_zero] using hK
  | succ i =>
    obtain ⟨a1, -, a3⟩ := agree hp ha hdt hF hM i (by omega)
    obtain ⟨h1, h2, h3⟩ := toIR_h hp ha
    rw [uptake hp.ok, IRPar.U_succ, toIR_l hp ha, h1, h2, h3, ha]
    rw [show p.toIR.e = p.e from rfl]
    set S := p.toIR.T1 F i + p.toIR.T2 F i
    set B := p.phi1 * p.toIR.T1 F i + p.phi2 * p.toIR.T2 F i
    rw [show F i - (p.l - 0 * p.T F i) * p.T F i - (p.e - 1) * p.h * (p.T F i - p.TD F i) -
        (F i - 1 * p.l * S - (p.e - 1) * p.h * (S - B)) =
        -(p.l * (p.T F i - S)) - (p.e - 1) * p.h * ((p.T F i - p.TD F i) - (S - B)) by ring]
    calc |-(p.l * (p.T F i - S)) - (p.e - 1) * p.h * ((p.T F i - p.TD F i) - (S - B))|
        ≤ |-(p.l * (p.T F i - S))| + |(p.e - 1) * p.h * ((p.T F i - p.TD F i) - (S - B))| := abs_sub _ _
      _ = p.l * |p.T F i - S| + |p.e - 1| * p.h * |(p.T F i - p.TD F i) - (S - B)| := by
          rw [abs_neg, abs_mul, abs_mul, abs_mul, abs_of_pos hp.l, abs_of_pos hp.h]
      _ ≤ p.l * (p.dt * M / p.C) + |p.e - 1| * p.h *
            (p.dt * M * (|1 - p.phi1| * (p.q1 / p.tau1) + |1 - p.phi2| * (p.q2 / p.tau2))) :=
          add_le_add (mul_le_mul_of_nonneg_left a1 hp.l.le)
            (mul_le_mul_of_nonneg_left a3 (mul_nonneg (abs_nonneg _) hp.h.le))
      _ = p.uptakeConst * (p.dt * M) := by unfold uptakeConst; ring

/-! ## Differential equations -/

theorem ode_of_boxes (hp : p.Pos) {n : ℕ} {F : ℕ → ℝ} {y1 y2 : ℝ → ℝ} (h1 : BoxODE p.q1 p.tau1 p.dt n F y1)
    (h2 : BoxODE p.q2 p.tau2 p.dt n F y2) :
    TwoLayerSol p n F (fun t => y1 t + y2 t) (fun t => p.phi1 * y1 t + p.phi2 * y2 t) := by
  have hC := hp.C; have hD := hp.D; have hl := hp.l; have he := hp.e; have hh := hp.h
  have t1 := hp.tau1_pos; have t2 := hp.tau2_pos
  refine ⟨by simp [h1.rest, h2.rest], h1.cont.add h2.cont,
    (continuousOn_const.mul h1.cont).add (continuousOn_const.mul h2.cont), ?_⟩
  intro k hk t ht
  obtain ⟨z1, d1, e1⟩ := h1.ode k hk t ht
  obtain ⟨z2, d2, e2⟩ := h2.ode k hk t ht
  refine ⟨_, _, d1.add d2, (d1.const_mul p.phi1).add (d2.const_mul p.phi2), ?_, ?_⟩
  · have u1 : (p.l + p.e * p.h * (1 - p.phi1)) * p.tau1 = p.C := Geo.mode_upper1 hC hD hl he hh
    have u2 : (p.l + p.e * p.h * (1 - p.phi2)) * p.tau2 = p.C := Geo.mode_upper2 hC hD hl he hh
    have s1 : p.q1 / p.tau1 + p.q2 / p.tau2 = 1 / p.C := Geo.q_over_tau hC hD hl he hh
    have s1' : (p.l + p.e * p.h * (1 - p.phi1)) * p.q1 + (p.l + p.e * p.h * (1 - p.phi2)) * p.q2 = 1 := by
      have a : p.l + p.e * p.h * (1 - p.phi1) = p.C / p.tau1 := by rw [eq_div_iff t1.ne']; exact u1
      have b : p.l + p.e * p.h * (1 - p.phi2) = p.C / p.tau2 := by rw [eq_div_iff t2.ne']; exact u2
      rw [a, b]
      calc p.C / p.tau1 * p.q1 + p.C / p.tau2 * p.q2 = p.C * (p.q1 / p.tau1 + p.q2 / p.tau2) := by ring
        _ = 1 := by rw [s1]; field_simp
    simp only
    linear_combination (-z1) * u1 + (-z2) * u2 + (p.l + p.e * p.h * (1 - p.phi1)) * e1 +
      (p.l + p.e * p.h * (1 - p.phi2)) * e2 + F k * s1'
  · have l1 : p.phi1 * (p.h * p.tau1 - p.D) = p.h * p.tau1 := Geo.mode_lower1 hC hD hl he hh
    have l2 : p.phi2 * (p.h * p.tau2 - p.D) = p.h * p.tau2 := Geo.mode_lower2 hC hD hl he hh
    have hq : p.q1 + p.q2 = 1 / p.l := hp.q_sum
    have hpq : p.phi1 * p.q1 + p.phi2 * p.q2 = 1 / p.l := hp.phi_q_sum
    simp only
    linear_combination (-z1) * l1 + (-z2) * l2 - p.h * (1 - p.phi1) * e1 - p.h * (1 - p.phi2) * e2 +
      p.h * F k * (hpq - hq)

/-- at a point where the two-layer equations hold, the two modes obey the box equations -/
theorem boxes_pt (hp : p.Pos) {f : ℝ} {T TD : ℝ → ℝ} {t : ℝ} (h : TwoLayerODE p.C p.D p.l p.e p.h f T TD t) :
    (∃ y', HasDerivAt (fun t => (p.phi2 * T t - TD t) / (p.phi2 - p.phi1)) y' t ∧
      p.tau1 * y' = p.q1 * f - (p.phi2 * T t - TD t) / (p.phi2 - p.phi1)) ∧
    ∃ y', HasDerivAt (fun t => (TD t - p.phi1 * T t) / (p.phi2 - p.phi1)) y' t ∧
      p.tau2 * y' = p.q2 * f - (TD t - p.phi1 * T t) / (p.phi2 - p.phi1) := by
  have hC := hp.C; have hD := hp.D; have hl := hp.l; have he := hp.e; have hh := hp.h
  have t1 := hp.tau1_pos; have t2 := hp.tau2_pos
  have hs : 0 < p.phi2 - p.phi1 := Geo.phi_sub_pos hC hD hl he hh
  have u1 : (p.l + p.e * p.h * (1 - p.phi1)) * p.tau1 = p.C := Geo.mode_upper1 hC hD hl he hh
  have u2 : (p.l + p.e * p.h * (1 - p.phi2)) * p.tau2 = p.C := Geo.mode_upper2 hC hD hl he hh
  have l1 : p.phi1 * (p.h * p.tau1 - p.D) = p.h * p.tau1 := Geo.mode_lower1 hC hD hl he hh
  have l2 : p.phi2 * (p.h * p.tau2 - p.D) = p.h * p.tau2 := Geo.mode_lower2 hC hD hl he hh
  have a1 : p.q1 = p.tau1 * p.phi2 / (p.C * (p.phi2 - p.phi1)) := rfl
  have a2 : p.q2 = -(p.tau2) * p.phi1 / (p.C * (p.phi2 - p.phi1)) := rfl
  -- relations between a mode of one and the coefficients of the other
  have pp : p.phi1 * p.phi2 = -(p.C / (p.e * p.D)) := Geo.phi1_mul_phi2 hC hD hl he hh
  have k1 : p.tau1 * (p.phi2 / p.C * (p.l + p.e * p.h) + p.h / p.D) = p.phi2 := by
    have m1 : p.phi2 * (p.l + p.e * p.h) * p.D + p.h * p.C = p.phi2 * (p.l + p.e * p.h * (1 - p.phi1)) * p.D := by
      have : p.phi1 * p.phi2 * (p.e * p.D) = -p.C := by rw [pp]; field_simp
      linear_combination p.h * this
    have : p.tau1 * (p.phi2 / p.C * (p.l + p.e * p.h) + p.h / p.D) =
        (p.phi2 * (p.l + p.e * p.h) * p.D + p.h * p.C) * p.tau1 / (p.C * p.D) := by field_simp
    rw [this, m1, show p.phi2 * (p.l + p.e * p.h * (1 - p.phi1)) * p.D * p.tau1 =
      p.phi2 * p.D * ((p.l + p.e * p.h * (1 - p.phi1)) * p.tau1) by ring, u1]
    field_simp
  have k2 : p.tau2 * (p.phi1 / p.C * (p.l + p.e * p.h) + p.h / p.D) = p.phi1 := by
    have m1 : p.phi1 * (p.l + p.e * p.h) * p.D + p.h * p.C = p.phi1 * (p.l + p.e * p.h * (1 - p.phi2)) * p.D := by
      have : p.phi1 * p.phi2 * (p.e * p.D) = -p.C := by rw [pp]; field_simp
      linear_combination p.h * this
    have : p.tau2 * (p.phi1 / p.C * (p.l + p.e * p.h) + p.h / p.D) =
        (p.phi1 * (p.l + p.e * p.h) * p.D + p.h * p.C) * p.tau2 / (p.C * p.D) := by field_simp
    rw [this, m1, show p.phi1 * (p.l + p.e * p.h * (1 - p.phi2)) * p.D * p.tau2 =
      p.phi1 * p.D * ((p.l + p.e * p.h * (1 - p.phi2)) * p.tau2) by ring, u2]
    field_simp
  -- e h τ2 φ2 / C + h τ2 / D = ... the same for the temperature of the lower layer
  have j1 : p.tau1 * (p.phi2 / p.C * (p.e * p.h) + p.h / p.D) = 1 := by
    have m : p.phi2 * p.e * p.D + p.C = p.l * p.tau2 := by
      have := Geo.tau2_phi2 hC hD hl he hh
      have h' : p.C + p.phi2 * p.e * p.D = p.l * p.tau2 := this
      linarith
    have tt : p.tau1 * p.tau2 = p.C * p.D / (p.l * p.h) := Geo.tau1_mul_tau2 hC hD hl he hh
    have : p.tau1 * (p.phi2 / p.C * (p.e * p.h) + p.h / p.D) = p.h * p.tau1 * (p.phi2 * p.e * p.D + p.C) / (p.C * p.D) := by
      field_simp
    rw [this, m, show p.h * p.tau1 * (p.l * p.tau2) = p.h * p.l * (p.tau1 * p.tau2) by ring, tt]
    field_simp
  have j2 : p.tau2 * (p.phi1 / p.C * (p.e * p.h) + p.h / p.D) = 1 := by
    have m : p.phi1 * p.e * p.D + p.C = p.l * p.tau1 := by
      have h' : p.C + p.phi1 * p.e * p.D = p.l * p.tau1 := Geo.tau1_phi1 hC hD hl he hh
      linarith
    have tt : p.tau1 * p.tau2 = p.C * p.D / (p.l * p.h) := Geo.tau1_mul_tau2 hC hD hl he hh
    have : p.tau2 * (p.phi1 / p.C * (p.e * p.h) + p.h / p.D) = p.h * p.tau2 * (p.phi1 * p.e * p.D + p.C) / (p.C * p.D) := by
      field_simp
    rw [this, m, show p.h * p.tau2 * (p.l * p.tau1) = p.h * p.l * (p.tau1 * p.tau2) by ring, tt]
    field_simp
  constructor
  · obtain ⟨T', TD', d1, d2, e1, e2⟩ := h
    refine ⟨_, ((d1.const_mul p.phi2).sub d2).div_const _, ?_⟩
    have e1' : T' = (f - p.l * T t - p.e * p.h * (T t - TD t)) / p.C := by rw [eq_div_iff hC.ne']; linarith
    have e2' : TD' = p.h * (T t - TD t) / p.D := by rw [eq_div_iff hD.ne']; linarith
    rw [a1, e1', e2']
    have : p.tau1 * ((p.phi2 * ((f - p.l * T t - p.e * p.h * (T t - TD t)) / p.C) - p.h * (T t - TD t) / p.D)) =
        p.tau1 * p.phi2 / p.C * f - (p.phi2 * T t - TD t) := by
      have a : p.tau1 * ((p.phi2 * ((f - p.l * T t - p.e * p.h * (T t - TD t)) / p.C) - p.h * (T t - TD t) / p.D)) =
          p.tau1 * p.phi2 / p.C * f - p.tau1 * (p.phi2 / p.C * (p.l + p.e * p.h) + p.h / p.D) * T t +
          p.tau1 * (p.phi2 / p.C * (p.e * p.h) + p.h / p.D) * TD t := by ring
      rw [a, k1, j1]; ring
    rw [← mul_div_assoc, this]
    field_simp
  · obtain ⟨T', TD', d1, d2, e1, e2⟩ := h
    refine ⟨_, (d2.sub (d1.const_mul p.phi1)).div_const _, ?_⟩
    have e1' : T' = (f - p.l * T t - p.e * p.h * (T t - TD t)) / p.C := by rw [eq_div_iff hC.ne']; linarith
    have e2' : TD' = p.h * (T t - TD t) / p.D := by rw [eq_div_iff hD.ne']; linarith
    rw [a2, e1', e2']
    have : p.tau2 * (p.h * (T t - TD t) / p.D - (p.phi1 * ((f - p.l * T t - p.e * p.h * (T t - TD t)) / p.C))) =
        -(p.tau2) * p.phi1 / p.C * f - (TD t - p.phi1 * T t) := by
      have a : p.tau2 * (p.h * (T t - TD t) / p.D - (p.phi1 * ((f - p.l * T t - p.e * p.h * (T t - TD t)) / p.C))) =
          -(p.tau2) * p.phi1 / p.C * f + p.tau2 * (p.phi1 / p.C * (p.l + p.e * p.h) + p.h / p.D) * T t -
          p.tau2 * (p.phi1 / p.C * (p.e * p.h) + p.h / p.D) * TD t := by ring
      rw [a, k2, j2]; ring
    rw [← mul_div_assoc, this]
    field_simp

theorem boxes_of_ode (hp : p.Pos) {n : ℕ} {F : ℕ → ℝ} {T TD : ℝ → ℝ} (h : TwoLayerSol p n F T TD) :
    BoxODE p.q1 p.tau1 p.dt n F (fun t => (p.phi2 * T t - TD t) / (p.phi2 - p.phi1)) ∧
    BoxODE p.q2 p.tau2 p.dt n F (fun t => (TD t - p.phi1 * T t) / (p.phi2 - p.phi1)) :=
  ⟨⟨by simp [h.rest.1, h.rest.2], ((continuousOn_const.mul h.contT).sub h.contTD).div_const _,
    fun k hk t ht => (boxes_pt hp (h.ode k hk t ht)).1⟩,
   ⟨by simp [h.rest.1, h.rest.2], (h.contTD.sub (continuousOn_const.mul h.contT)).div_const _,
    fun k hk t ht => (boxes_pt hp (h.ode k hk t ht)).2⟩⟩

end TLPar
end TwoLayer
