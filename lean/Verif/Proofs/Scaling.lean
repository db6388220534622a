import Verif.Proofs.Sensitivity

/-! # Similarity, ramps and cumulated responses -/

set_option linter.unusedSimpArgs false
set_option linter.unusedSectionVars false

namespace TwoLayer

namespace TLPar
variable {p : TLPar} {F G : ℕ → ℝ}

/-- similar parameters: time scaled by `k`, energy fluxes by `s` per kelvin, temperatures by `x` -/
theorem similar {k s x : ℝ} (hk : k ≠ 0) (hs : s ≠ 0) (hx : x ≠ 0) (hok : p.Ok) (F : ℕ → ℝ) (i : ℕ) :
    TLPar.T ⟨k * s * p.C, k * s * p.D, s * p.l, s / x * p.a, p.e, s * p.h, k * p.dt⟩ (fun j => s * x * F j) i = x * p.T F i ∧
    TLPar.TD ⟨k * s * p.C, k * s * p.D, s * p.l, s / x * p.a, p.e, s * p.h, k * p.dt⟩ (fun j => s * x * F j) i = x * p.TD F i ∧
    TLPar.U ⟨k * s * p.C, k * s * p.D, s * p.l, s / x * p.a, p.e, s * p.h, k * p.dt⟩ (fun j => s * x * F j) i =
      s * x * p.U F i := by
  have hC := hok.C; have hD := hok.D; have hdt := hok.dt
  set p' : TLPar := ⟨k * s * p.C, k * s * p.D, s * p.l, s / x * p.a, p.e, s * p.h, k * p.dt⟩ with hp'
  have key : ∀ i, p'.T (fun j => s * x * F j) i = x * p.T F i ∧ p'.TD (fun j => s * x * F j) i = x * p.TD F i := by
    intro i
    induction i with
    | zero => simp [TLPar.T, TLPar.TD, TLPar.sol]
    | succ i ih =>
      rw [T_succ, TD_succ, ih.1, ih.2, T_succ, TD_succ]
      simp only [hp']
      constructor <;> field_simp <;> ring
  refine ⟨(key i).1, (key i).2, ?_⟩
  cases i with
  | zero => simp [TLPar.U, TLPar.sol]
  | succ i =>
    rw [U_succ, (key i).1, (key i).2, (key (i + 1)).1, (key (i + 1)).2, U_succ]
    simp only [hp']
    field_simp

theorem eul_ramp {q τ dt : ℝ} (hτ : τ ≠ 0) (hdt : dt ≠ 0) (c : ℝ) (i : ℕ) :
    eul q τ dt (fun j => c * j) i = q * c * (i - τ / dt * (1 - (1 - dt / τ) ^ i)) := by
  induction i with
  | zero => simp [eul]
  | succ i ih => rw [eul, ih, pow_succ]; push_cast; field_simp; ring

theorem Pos.tau1_eq (hp : p.Pos) : p.tau1 = (p.C + p.e * p.D * p.phi1) / p.l ∧
    p.phi1 * p.tau1 = p.tau1 + p.phi1 * p.D / p.h := by
  have hC := hp.C; have hD := hp.D; have hl := hp.l; have he := hp.e; have hh := hp.h
  have u1 : (p.l + p.e * p.h * (1 - p.phi1)) * p.tau1 = p.C := Geo.mode_upper1 hC hD hl he hh
  have l1 : p.phi1 * (p.h * p.tau1 - p.D) = p.h * p.tau1 := Geo.mode_lower1 hC hD hl he hh
  constructor
  · rw [eq_div_iff hl.ne']; linear_combination u1 + p.e * l1
  · field_simp; linear_combination l1

theorem Pos.tau2_eq (hp : p.Pos) : p.tau2 = (p.C + p.e * p.D * p.phi2) / p.l ∧
    p.phi2 * p.tau2 = p.tau2 + p.phi2 * p.D / p.h := by
  have hC := hp.C; have hD := hp.D; have hl := hp.l; have he := hp.e; have hh := hp.h
  have u2 : (p.l + p.e * p.h * (1 - p.phi2)) * p.tau2 = p.C := Geo.mode_upper2 hC hD hl he hh
  have l2 : p.phi2 * (p.h * p.tau2 - p.D) = p.h * p.tau2 := Geo.mode_lower2 hC hD hl he hh
  constructor
  · rw [eq_div_iff hl.ne']; linear_combination u2 + p.e * l2
  · field_simp; linear_combination l2

theorem Pos.q_tau_sum (hp : p.Pos) : p.q1 * p.tau1 + p.q2 * p.tau2 = (p.C + p.e * p.D) / p.l ^ 2 := by
  have hl := hp.l.ne'
  rw [hp.tau1_eq.1, hp.tau2_eq.1]
  have h1 := hp.q_sum; have h2 := hp.phi_q_sum
  have : p.q1 * ((p.C + p.e * p.D * p.phi1) / p.l) + p.q2 * ((p.C + p.e * p.D * p.phi2) / p.l) =
      (p.C * (p.q1 + p.q2) + p.e * p.D * (p.phi1 * p.q1 + p.phi2 * p.q2)) / p.l := by ring
  rw [this, h1, h2]; field_simp

theorem Pos.phi_q_tau_sum (hp : p.Pos) : p.phi1 * p.q1 * p.tau1 + p.phi2 * p.q2 * p.tau2 =
    (p.C + p.e * p.D) / p.l ^ 2 + p.D / (p.h * p.l) := by
  have hl := hp.l.ne'; have hh := hp.h.ne'
  have e1 := hp.tau1_eq.2; have e2 := hp.tau2_eq.2
  have : p.phi1 * p.q1 * p.tau1 + p.phi2 * p.q2 * p.tau2 =
      (p.q1 * p.tau1 + p.q2 * p.tau2) + p.D / p.h * (p.phi1 * p.q1 + p.phi2 * p.q2) := by
    linear_combination p.q1 * e1 + p.q2 * e2
  rw [this, hp.q_tau_sum, hp.phi_q_sum]; field_simp

/-- response to a ramp: equilibrium warming of the current forcing, minus a constant lag, plus transients -/
theorem ramp (hp : p.Pos) (ha : p.a = 0) (c : ℝ) : ∃ K, ∀ i : ℕ,
    |p.T (fun j => c * j) i - c / p.l * (i - (p.C + p.e * p.D) / p.l / p.dt)| ≤ K * p.rate ^ i ∧
    |p.TD (fun j => c * j) i - c / p.l * (i - ((p.C + p.e * p.D) / p.l + p.D / p.h) / p.dt)| ≤ K * p.rate ^ i := by
  have hl := hp.l.ne'; have hdt := hp.dt.ne'; have hh := hp.h.ne'
  have t1 := hp.tau1_pos.ne'; have t2 := hp.tau2_pos.ne'
  set x := 1 - p.dt / p.tau1
  set y := 1 - p.dt / p.tau2
  have hx : |x| ≤ p.rate := le_max_left _ _
  have hy : |y| ≤ p.rate := le_max_right _ _
  set A := p.q1 * c * (p.tau1 / p.dt)
  set B := p.q2 * c * (p.tau2 / p.dt)
  have hr : 0 ≤ p.rate := (abs_nonneg _).trans hx
  refine ⟨max (|A| + |B|) (|p.phi1 * A| + |p.phi2 * B|), fun i => ?_⟩
  obtain ⟨m1, m2⟩ := modes hp ha (fun j => c * j) i
  rw [eul_ramp t1 hdt, eul_ramp t2 hdt] at m1 m2
  have e1 : p.T (fun j => c * j) i - c / p.l * (i - (p.C + p.e * p.D) / p.l / p.dt) = A * x ^ i + B * y ^ i := by
    rw [m1]
    have h1 := hp.q_sum
    have h2 := hp.q_tau_sum
    have k1 : c / p.l = c * (p.q1 + p.q2) := by rw [h1]; ring
    have k2 : c / p.l * ((p.C + p.e * p.D) / p.l / p.dt) = c / p.dt * (p.q1 * p.tau1 + p.q2 * p.tau2) := by
      rw [h2]; field_simp
    rw [mul_sub (c / p.l), k2, k1]; simp only [A, B, x, y]; ring
  have e2 : p.TD (fun j => c * j) i - c / p.l * (i - ((p.C + p.e * p.D) / p.l + p.D / p.h) / p.dt) =
      p.phi1 * A * x ^ i + p.phi2 * B * y ^ i := by
    rw [m2]
    have h1 := hp.phi_q_sum
    have h2 := hp.phi_q_tau_sum
    have k1 : c / p.l = c * (p.phi1 * p.q1 + p.phi2 * p.q2) := by rw [h1]; ring
    have k2 : c / p.l * (((p.C + p.e * p.D) / p.l + p.D / p.h) / p.dt) =
        c / p.dt * (p.phi1 * p.q1 * p.tau1 + p.phi2 * p.q2 * p.tau2) := by
      rw [h2]; field_simp
    rw [mul_sub (c / p.l), k2, k1]; simp only [A, B, x, y]; ring
  rw [e1, e2]
  have hri : 0 ≤ p.rate ^ i := pow_nonneg hr i
  exact ⟨(comb_bound hx hy i).trans (mul_le_mul_of_nonneg_right (le_max_left _ _) hri),
    (comb_bound hx hy i).trans (mul_le_mul_of_nonneg_right (le_max_right _ _) hri)⟩

/-- heat uptake under a ramp -/
theorem ramp_uptake (hp : p.Pos) (ha : p.a = 0) (c : ℝ) : ∃ K, ∀ i : ℕ,
    |p.U (fun j => c * j) (i + 1) - (p.C + p.D) * (c / p.l) / p.dt| ≤ K * p.rate ^ i := by
  obtain ⟨K, hK⟩ := ramp hp ha c
  have hl := hp.l.ne'; have hdt := hp.dt.ne'; have hh := hp.h.ne'
  refine ⟨|p.l| * K + |(p.e - 1) * p.h| * (K + K), fun i => ?_⟩
  obtain ⟨h1, h2⟩ := hK i
  set a := p.T (fun j => c * j) i - c / p.l * (i - (p.C + p.e * p.D) / p.l / p.dt) with ha'
  set b := p.TD (fun j => c * j) i - c / p.l * (i - ((p.C + p.e * p.D) / p.l + p.D / p.h) / p.dt) with hb'
  have : p.U (fun j => c * j) (i + 1) - (p.C + p.D) * (c / p.l) / p.dt = -(p.l * a) - (p.e - 1) * p.h * (a - b) := by
    rw [uptake hp.ok, ha, ha', hb']
    field_simp
    ring
  rw [this]
  calc |-(p.l * a) - (p.e - 1) * p.h * (a - b)| ≤ |p.l| * |a| + |(p.e - 1) * p.h| * (|a| + |b|) := by
        refine (abs_sub _ _).trans ?_
        rw [abs_neg, abs_mul, abs_mul]
        have := abs_sub a b
        gcongr
    _ ≤ |p.l| * (K * p.rate ^ i) + |(p.e - 1) * p.h| * (K * p.rate ^ i + K * p.rate ^ i) := by gcongr
    _ = _ := by ring

/-- the cumulated response of a box -/
theorem eul_sum_tendsto {q τ dt Φ : ℝ} (hx : |1 - dt / τ| < 1)
    (hF : Filter.Tendsto (fun n => ∑ j ∈ Finset.range n, F j) Filter.atTop (nhds Φ)) :
    Filter.Tendsto (fun n => ∑ j ∈ Finset.range (n + 1), eul q τ dt F j) Filter.atTop (nhds (q * Φ)) := by
  refine recur_tendsto hx (z := fun n => ∑ j ∈ Finset.range (n + 1), eul q τ dt F j)
    (F := fun n => ∑ j ∈ Finset.range (n + 1), F j) (fun n => ?_) ((Filter.tendsto_add_atTop_iff_nat 1).mpr hF)
  have hstep : ∀ n, ∑ j ∈ Finset.range (n + 1), eul q τ dt F (j + 1) =
      (1 - dt / τ) * ∑ j ∈ Finset.range (n + 1), eul q τ dt F j + q * (1 - (1 - dt / τ)) * ∑ j ∈ Finset.range (n + 1), F j := by
    intro n
    rw [Finset.mul_sum, Finset.mul_sum, ← Finset.sum_add_distrib]
    exact Finset.sum_congr rfl fun j _ => by rw [eul]; ring
  show ∑ j ∈ Finset.range (n + 1 + 1), eul q τ dt F j = _
  rw [Finset.sum_range_succ', hstep]
  simp [eul]

theorem sum_tendsto (hp : p.Pos) (ha : p.a = 0) (hdt : p.dt < 2 * p.tau1) {Φ : ℝ}
    (hF : Filter.Tendsto (fun n => ∑ j ∈ Finset.range n, F j) Filter.atTop (nhds Φ)) :
    Filter.Tendsto (fun n => ∑ j ∈ Finset.range (n + 1), p.T F j) Filter.atTop (nhds (Φ / p.l)) ∧
    Filter.Tendsto (fun n => ∑ j ∈ Finset.range (n + 1), p.TD F j) Filter.atTop (nhds (Φ / p.l)) := by
  have hr := rate_lt hp hdt
  have h1 := eul_sum_tendsto (q := p.q1) (lt_of_le_of_lt (le_max_left _ _) hr) hF
  have h2 := eul_sum_tendsto (q := p.q2) (lt_of_le_of_lt (le_max_right _ _) hr) hF
  constructor
  · have h := h1.add h2
    have e : p.q1 * Φ + p.q2 * Φ = Φ / p.l := by rw [← add_mul, hp.q_sum]; ring
    rw [e] at h
    refine h.congr fun i => ?_
    rw [← Finset.sum_add_distrib]
    exact Finset.sum_congr rfl fun j _ => (modes hp ha F j).1.symm
  · have h := (h1.const_mul p.phi1).add (h2.const_mul p.phi2)
    have e : p.phi1 * (p.q1 * Φ) + p.phi2 * (p.q2 * Φ) = Φ / p.l := by
      rw [← mul_assoc, ← mul_assoc, ← add_mul, hp.phi_q_sum]; ring
    rw [e] at h
    refine h.congr fun i => ?_
    rw [Finset.mul_sum, Finset.mul_sum, ← Finset.sum_add_distrib]
    exact Finset.sum_congr rfl fun j _ => (modes hp ha F j).2.symm

end TLPar

variable {q d dt : ℝ} {F : ℕ → ℝ}

theorem boxSol_similar {k s x : ℝ} (hk : k ≠ 0) (hs : s ≠ 0) (i : ℕ) :
    boxSol (q * (x / s)) (d * k) (dt * k) (fun j => s * F j) i = x * boxSol q d dt F i := by
  induction i with
  | zero => simp [boxSol]
  | succ i ih =>
    have e : dt * k / (d * k) = dt / d := mul_div_mul_right _ _ hk
    rw [boxSol_succ, boxSol_succ, ih, e]
    field_simp

theorem boxSol_ramp (h1 : Real.exp (-(dt / d)) ≠ 1) (c : ℝ) (i : ℕ) : boxSol q d dt (fun j => c * j) i =
    q * c * (i - (1 - Real.exp (-(dt / d)) ^ i) / (1 - Real.exp (-(dt / d)))) := by
  have h : 1 - Real.exp (-(dt / d)) ≠ 0 := sub_ne_zero.mpr (Ne.symm h1)
  induction i with
  | zero => simp [boxSol]
  | succ i ih =>
    rw [boxSol_succ, ih]
    generalize Real.exp (-(dt / d)) = E at *
    rw [pow_succ]; push_cast; field_simp; ring

theorem boxSol_sum_tendsto (hd : 0 < d) (hdt : 0 < dt) {Φ : ℝ}
    (hF : Filter.Tendsto (fun n => ∑ j ∈ Finset.range n, F j) Filter.atTop (nhds Φ)) :
    Filter.Tendsto (fun n => ∑ j ∈ Finset.range (n + 1), boxSol q d dt F j) Filter.atTop (nhds (q * Φ)) := by
  have hE : |Real.exp (-(dt / d))| < 1 := by
    rw [abs_of_pos (Real.exp_pos _), Real.exp_lt_one_iff]
    have := div_pos hdt hd
    linarith
  refine recur_tendsto hE (z := fun n => ∑ j ∈ Finset.range (n + 1), boxSol q d dt F j)
    (F := fun n => ∑ j ∈ Finset.range (n + 1), F j) (fun n => ?_) ((Filter.tendsto_add_atTop_iff_nat 1).mpr hF)
  have hstep : ∀ n, ∑ j ∈ Finset.range (n + 1), boxSol q d dt F (j + 1) =
      Real.exp (-(dt / d)) * ∑ j ∈ Finset.range (n + 1), boxSol q d dt F j +
      q * (1 - Real.exp (-(dt / d))) * ∑ j ∈ Finset.range (n + 1), F j := by
    intro n
    rw [Finset.mul_sum, Finset.mul_sum, ← Finset.sum_add_distrib]
    exact Finset.sum_congr rfl fun j _ => by rw [boxSol_succ]; ring
  show ∑ j ∈ Finset.range (n + 1 + 1), boxSol q d dt F j = _
  rw [Finset.sum_range_succ', hstep]
  simp [boxSol]

end TwoLayer

namespace TwoLayer
namespace IRPar

theorem scaled_uptake {p : IRPar} (hok : p.Boxes) {r k : ℝ} (hr : 0 < r) (hk : 0 < k) (dt e : ℝ) (he : e = p.e) :
    IRPar.l ⟨p.q1 * r, p.q2 * r, p.d1 * k, p.d2 * k, e, dt⟩ = p.l / r ∧
    IRPar.h ⟨p.q1 * r, p.q2 * r, p.d1 * k, p.d2 * k, e, dt⟩ = p.h / r ∧
    IRPar.phi1 ⟨p.q1 * r, p.q2 * r, p.d1 * k, p.d2 * k, e, dt⟩ = p.phi1 ∧
    IRPar.phi2 ⟨p.q1 * r, p.q2 * r, p.d1 * k, p.d2 * k, e, dt⟩ = p.phi2 := by
  subst he
  have hC := (Geo.invC_pos' hok.q1 hok.q2 hok.d1 hok.d2).ne'
  have hD := (Geo.invD_pos' hok.q1 hok.q2 hok.d1 hok.d2 hok.ne hok.e).ne'
  have hH := (Geo.invH_pos' hok.q1 hok.q2 hok.d1 hok.d2 hok.ne hok.e).ne'
  have a1 : ∀ x : ℝ, x / r = r⁻¹ * x := fun x => by ring
  refine ⟨Geo.invL_scale hr.ne', Geo.invH_scale hr.ne' hk.ne', ?_, ?_⟩ <;>
  simp only [IRPar.phi1, IRPar.phi2, IRPar.l, IRPar.h, Geo.invL_scale hr.ne', Geo.invH_scale hr.ne' hk.ne',
    Geo.invC_scale hr.ne' hk.ne', Geo.invD_scale hr.ne' hk.ne', a1]
  · exact Geo.phi1_scale (by positivity) (by positivity) hC hD hok.e.ne' hH
  · exact Geo.phi2_scale (by positivity) (by positivity) hC hD hok.e.ne' hH

theorem similar {p : IRPar} (hok : p.Boxes) {k s x : ℝ} (hk : 0 < k) (hsx : 0 < x / s) (κ : ℝ) (F : ℕ → ℝ) (i : ℕ) :
    IRPar.U ⟨p.q1 * (x / s), p.q2 * (x / s), p.d1 * k, p.d2 * k, p.e, p.dt * k⟩ κ (fun j => s * F j) i = s * p.U κ F i := by
  have hs : s ≠ 0 := by rintro rfl; simp at hsx
  have hx : x ≠ 0 := by rintro rfl; simp at hsx
  cases i with
  | zero => simp [IRPar.U]
  | succ i =>
    obtain ⟨e1, e2, e3, e4⟩ := scaled_uptake hok hsx hk (p.dt * k) p.e rfl
    rw [U_succ, U_succ, e1, e2, e3, e4]
    simp only [IRPar.T1, IRPar.T2]
    rw [boxSol_similar hk.ne' hs, boxSol_similar hk.ne' hs]
    field_simp

end IRPar
end TwoLayer
