import Verif.Proofs.TLMath
import Verif.Proofs.Sensitivity
import Mathlib.Topology.Algebra.Order.Field

/-!
# A very deep lower layer; how the timescales depend on the parameters
-/

set_option linter.unusedSimpArgs false
set_option linter.unusedVariables false

namespace TwoLayer
namespace TLPar

variable {p : TLPar} {F : ℕ → ℝ}

/-- the one-layer model which an infinitely deep lower layer leaves -/
noncomputable def top (p : TLPar) : TLPar := { p with l := p.l + p.e * p.h, h := 0 }

theorem top_T_succ (p : TLPar) (F : ℕ → ℝ) (i : ℕ) : p.top.T F (i + 1) =
    p.top.T F i + p.dt * ((F i - (p.l + p.e * p.h - p.a * p.top.T F i) * p.top.T F i) / p.C) := by
  rw [T_succ]; simp [top]

theorem oneLayer_val (hC : p.C ≠ 0) (hdt : p.dt ≠ 0) {n : ℕ} {S : ℕ → ℝ}
    (h : OneLayerEq p.C p.l p.a (p.e * p.h) p.dt n F S) : ∀ i < n, S i = p.top.T F i := by
  intro i
  induction i with
  | zero => intro hi; rw [h.1 hi]; rfl
  | succ i ih =>
    intro hi
    have e := h.2 i hi
    rw [top_T_succ, ← ih (by omega)]
    field_simp at e ⊢
    linarith

theorem oneLayer_top (hC : p.C ≠ 0) (hdt : p.dt ≠ 0) (n : ℕ) (F : ℕ → ℝ) :
    OneLayerEq p.C p.l p.a (p.e * p.h) p.dt n F (p.top.T F) := by
  refine ⟨fun _ => rfl, fun i _ => ?_⟩
  rw [top_T_succ]; field_simp; ring

/-- heat uptake of the limit -/
noncomputable def topU (p : TLPar) (F : ℕ → ℝ) : ℕ → ℝ
  | 0 => 0
  | i + 1 => p.C * ((p.top.T F (i + 1) - p.top.T F i) / p.dt) + p.h * p.top.T F i

theorem deep_tendsto (hdt : p.dt ≠ 0) (F : ℕ → ℝ) (i : ℕ) :
    Filter.Tendsto (fun D => TLPar.T { p with D := D } F i) Filter.atTop (nhds (p.top.T F i)) ∧
    Filter.Tendsto (fun D => TLPar.TD { p with D := D } F i) Filter.atTop (nhds 0) := by
  induction i with
  | zero =>
    constructor
    · exact tendsto_const_nhds
    · exact tendsto_const_nhds
  | succ i ih =>
    obtain ⟨a, b⟩ := ih
    constructor
    · have k := a.add (((((tendsto_const_nhds (x := F i)).sub
        (((tendsto_const_nhds (x := p.l)).sub (a.const_mul p.a)).mul a)).sub
        ((a.sub b).const_mul (p.e * p.h))).div_const p.C).const_mul p.dt)
      rw [top_T_succ]
      refine (k.congr fun D => ?_).trans (le_of_eq ?_)
      · rw [T_succ]
      · congr 3; ring
    · have k := b.add (((((a.sub b).const_mul p.h).div_atTop Filter.tendsto_id)).const_mul p.dt)
      refine (k.congr fun D => ?_).trans (le_of_eq ?_)
      · rw [TD_succ]; rfl
      · simp

theorem deep_U (hC : p.C ≠ 0) (hdt : p.dt ≠ 0) (F : ℕ → ℝ) (i : ℕ) :
    Filter.Tendsto (fun D => TLPar.U { p with D := D } F i) Filter.atTop (nhds (p.topU F i)) := by
  cases i with
  | zero => exact tendsto_const_nhds
  | succ i =>
    obtain ⟨a, b⟩ := deep_tendsto (p := p) hdt F i
    obtain ⟨a', -⟩ := deep_tendsto (p := p) hdt F (i + 1)
    have k := (((a'.sub a).div_const p.dt).const_mul p.C).add ((a.sub b).const_mul p.h)
    rw [sub_zero] at k
    refine k.congr' ?_
    filter_upwards [Filter.eventually_gt_atTop 0] with D hD
    have hok : TLPar.Ok { p with D := D } := ⟨hC, ne_of_gt hD, hdt⟩
    have e := energy hok F i
    have t := TD_step (p := { p with D := D }) hok.D F i
    rw [U_succ]
    simp only at t ⊢
    have : TLPar.TD { p with D := D } F (i + 1) =
      ((D - p.dt * p.h) * TLPar.TD { p with D := D } F i + p.dt * p.h * TLPar.T { p with D := D } F i) / D := by
      rw [← t]; field_simp
    rw [this]; field_simp; ring

/-- explicit rate -/
theorem deep_bound (hr : p.Resolved) (ha : p.a = 0) {M : ℝ} {k : ℕ} (hF : ∀ i < k, |F i| ≤ M) :
    ∀ i ≤ k, |p.TD F i| ≤ i * (p.dt * p.h / p.D) * (M / p.l) ∧
      |p.T F i - p.top.T F i| ≤ p.e * p.h / (p.l + p.e * p.h) * (i * (p.dt * p.h / p.D) * (M / p.l)) := by
  have hl := hr.l; have hC := hr.C; have hD := hr.D; have hdt := hr.dt; have he := hr.e; have hh := hr.h
  have heh : 0 ≤ p.e * p.h := mul_nonneg he hh
  have hk : 0 < p.l + p.e * p.h := by linarith
  have hx1 : p.dt * p.h / p.D ≤ 1 := by rw [div_le_one hD]; exact hr.lower
  have hx0 : 0 ≤ p.dt * p.h / p.D := by positivity
  have hy1 : p.dt * (p.l + p.e * p.h) / p.C ≤ 1 := by rw [div_le_one hC]; exact hr.upper
  intro i
  induction i with
  | zero => intro _; simp
  | succ i ih =>
    intro hi
    obtain ⟨a, b⟩ := ih (by omega)
    have hM : 0 ≤ M := (abs_nonneg _).trans (hF i (by omega))
    obtain ⟨⟨t1, t2⟩, -⟩ := bounds hr ha (neg_nonpos.mpr hM) hM (k := k)
      (fun j hj => abs_le.mp (hF j hj)) i (by omega)
    have hT : |p.T F i| ≤ M / p.l := abs_le.mpr ⟨by rw [← neg_div]; exact t1, t2⟩
    have e1 : p.TD F (i + 1) = (1 - p.dt * p.h / p.D) * p.TD F i + p.dt * p.h / p.D * p.T F i := by
      rw [TD_succ]; field_simp; ring
    have e2 : p.T F (i + 1) - p.top.T F (i + 1) = (1 - p.dt * (p.l + p.e * p.h) / p.C) * (p.T F i - p.top.T F i) +
        p.dt * (p.e * p.h) / p.C * p.TD F i := by
      rw [T_succ, top_T_succ, ha]; field_simp; ring
    set x := p.dt * p.h / p.D
    set B := (i : ℝ) * x * (M / p.l) with hB
    have hMl : 0 ≤ M / p.l := by positivity
    have hB0 : 0 ≤ B := by positivity
    have hBs : ((i + 1 : ℕ) : ℝ) * x * (M / p.l) = B + x * (M / p.l) := by push_cast; rw [hB]; ring
    have hle : B ≤ B + x * (M / p.l) := le_add_of_nonneg_right (by positivity)
    rw [hBs]
    constructor
    · rw [e1]
      refine (abs_add_le _ _).trans ?_
      rw [abs_mul, abs_mul, abs_of_nonneg (by linarith : 0 ≤ 1 - x), abs_of_nonneg hx0]
      have : (1 - x) * |p.TD F i| ≤ |p.TD F i| := mul_le_of_le_one_left (abs_nonneg _) (by linarith)
      have := mul_le_mul_of_nonneg_left hT hx0
      linarith
    · rw [e2]
      refine (abs_add_le _ _).trans ?_
      rw [abs_mul, abs_mul, abs_of_nonneg (by linarith : 0 ≤ 1 - p.dt * (p.l + p.e * p.h) / p.C),
        abs_of_nonneg (by positivity : 0 ≤ p.dt * (p.e * p.h) / p.C)]
      have k1 := mul_le_mul_of_nonneg_left b (by linarith : 0 ≤ 1 - p.dt * (p.l + p.e * p.h) / p.C)
      have k2 := mul_le_mul_of_nonneg_left a (by positivity : 0 ≤ p.dt * (p.e * p.h) / p.C)
      have k3 : (1 - p.dt * (p.l + p.e * p.h) / p.C) * (p.e * p.h / (p.l + p.e * p.h) * B) +
        p.dt * (p.e * p.h) / p.C * B = p.e * p.h / (p.l + p.e * p.h) * B := by field_simp; ring
      have k4 : p.e * p.h / (p.l + p.e * p.h) * B ≤ p.e * p.h / (p.l + p.e * p.h) * (B + x * (M / p.l)) :=
        mul_le_mul_of_nonneg_left hle (by positivity)
      linarith

/-- constant forcing: the limit plateaus at `c / (l + e h)` and keeps taking up heat -/
theorem top_const (hC : 0 < p.C) (hdt : 0 < p.dt) (hk : 0 < p.l + p.e * p.h) (hx : p.dt * (p.l + p.e * p.h) < 2 * p.C)
    (ha : p.a = 0) (c : ℝ) :
    Filter.Tendsto (p.top.T fun _ => c) Filter.atTop (nhds (c / (p.l + p.e * p.h))) ∧
    Filter.Tendsto (p.topU fun _ => c) Filter.atTop (nhds (p.h * c / (p.l + p.e * p.h))) := by
  have hS : ∀ i, p.top.T (fun _ => c) i =
      c / (p.l + p.e * p.h) * (1 - (1 - p.dt * (p.l + p.e * p.h) / p.C) ^ i) := by
    intro i
    induction i with
    | zero => simp
    | succ i ih => rw [top_T_succ, ih, ha, pow_succ]; field_simp; ring
  have hr : |1 - p.dt * (p.l + p.e * p.h) / p.C| < 1 := by
    have h0 : 0 < p.dt * (p.l + p.e * p.h) / p.C := by positivity
    have h2 : p.dt * (p.l + p.e * p.h) / p.C < 2 := by rw [div_lt_iff₀ hC]; exact hx
    rw [abs_lt]; constructor <;> linarith
  have h1 : Filter.Tendsto (p.top.T fun _ => c) Filter.atTop (nhds (c / (p.l + p.e * p.h))) := by
    have k := ((tendsto_pow_atTop_nhds_zero_of_abs_lt_one hr).const_sub 1).const_mul (c / (p.l + p.e * p.h))
    simp only [sub_zero, mul_one] at k
    exact k.congr fun i => (hS i).symm
  refine ⟨h1, ?_⟩
  rw [← Filter.tendsto_add_atTop_iff_nat 1]
  have h2 := (Filter.tendsto_add_atTop_iff_nat 1).mpr h1
  have k := (((h2.sub h1).div_const p.dt).const_mul p.C).add (h1.const_mul p.h)
  simp only [sub_self, zero_div, mul_zero, zero_add] at k
  rw [mul_div_assoc]
  exact k

/-! ## Timescales -/

/-- the timescales are the roots of `x ↦ l h x² - (D (l + e h) + C h) x + C D` -/
theorem Pos.char (hp : p.Pos) (x : ℝ) : p.l * p.h * ((x - p.tau1) * (x - p.tau2)) =
    p.l * p.h * x ^ 2 - (p.D * (p.l + p.e * p.h) + p.C * p.h) * x + p.C * p.D := by
  have hl := hp.l; have hh := hp.h
  have s := Geo.tau1_add_tau2 (C := p.C) (D := p.D) (l := p.l) (e := p.e) (h := p.h) hp.C hp.D hp.l hp.e hp.h
  have m := Geo.tau1_mul_tau2 (C := p.C) (D := p.D) (l := p.l) (e := p.e) (h := p.h) hp.C hp.D hp.l hp.e hp.h
  have e : (x - p.tau1) * (x - p.tau2) = x ^ 2 - (p.tau1 + p.tau2) * x + p.tau1 * p.tau2 := by ring
  rw [e, tau1, tau2, s, m]; field_simp; ring

theorem Pos.between (hp : p.Pos) {x : ℝ}
    (hx : p.l * p.h * x ^ 2 - (p.D * (p.l + p.e * p.h) + p.C * p.h) * x + p.C * p.D < 0) : p.tau1 < x ∧ x < p.tau2 := by
  rw [← hp.char] at hx
  have hlt := hp.tau_lt
  have : 0 < p.l * p.h := mul_pos hp.l hp.h
  have hx : (x - p.tau1) * (x - p.tau2) < 0 := by
    by_contra hc; push Not at hc; nlinarith [mul_nonneg this.le hc]
  constructor
  · by_contra hc; push Not at hc; nlinarith
  · by_contra hc; push Not at hc; nlinarith

theorem Pos.outside (hp : p.Pos) {x : ℝ}
    (hx : 0 < p.l * p.h * x ^ 2 - (p.D * (p.l + p.e * p.h) + p.C * p.h) * x + p.C * p.D) : x < p.tau1 ∨ p.tau2 < x := by
  rw [← hp.char] at hx
  have hlt := hp.tau_lt
  have : 0 < p.l * p.h := mul_pos hp.l hp.h
  by_contra hc
  push Not at hc
  nlinarith [mul_nonneg this.le (mul_nonneg (sub_nonneg.mpr hc.1) (sub_nonneg.mpr hc.2))]

theorem Pos.root1 (hp : p.Pos) :
    p.l * p.h * p.tau1 ^ 2 - (p.D * (p.l + p.e * p.h) + p.C * p.h) * p.tau1 + p.C * p.D = 0 := by
  rw [← hp.char]; ring
theorem Pos.root2 (hp : p.Pos) :
    p.l * p.h * p.tau2 ^ 2 - (p.D * (p.l + p.e * p.h) + p.C * p.h) * p.tau2 + p.C * p.D = 0 := by
  rw [← hp.char]; ring

/-- the response time of the upper layer alone separates the two timescales -/
theorem Pos.upper_between (hp : p.Pos) : p.tau1 < p.C / (p.l + p.e * p.h) ∧ p.C / (p.l + p.e * p.h) < p.tau2 := by
  have hC := hp.C; have hD := hp.D; have hl := hp.l; have he := hp.e; have hh := hp.h
  refine hp.between ?_
  have : p.l * p.h * (p.C / (p.l + p.e * p.h)) ^ 2 - (p.D * (p.l + p.e * p.h) + p.C * p.h) * (p.C / (p.l + p.e * p.h)) +
      p.C * p.D = -(p.C ^ 2 * p.h * (p.e * p.h) / (p.l + p.e * p.h) ^ 2) := by field_simp; ring
  rw [this, neg_lt_zero]; positivity

/-- so does the response time of the lower layer alone -/
theorem Pos.lower_between (hp : p.Pos) : p.tau1 < p.D / p.h ∧ p.D / p.h < p.tau2 := by
  have hC := hp.C; have hD := hp.D; have hl := hp.l; have he := hp.e; have hh := hp.h
  refine hp.between ?_
  have : p.l * p.h * (p.D / p.h) ^ 2 - (p.D * (p.l + p.e * p.h) + p.C * p.h) * (p.D / p.h) +
      p.C * p.D = -(p.D ^ 2 * p.e) := by field_simp; ring
  rw [this, neg_lt_zero]; positivity

/-- and the response time of the two layers moving together -/
theorem Pos.total_between (hp : p.Pos) : p.tau1 < (p.C + p.e * p.D) / p.l ∧ (p.C + p.e * p.D) / p.l < p.tau2 := by
  have hC := hp.C; have hD := hp.D; have hl := hp.l; have he := hp.e; have hh := hp.h
  refine hp.between ?_
  have : p.l * p.h * ((p.C + p.e * p.D) / p.l) ^ 2 - (p.D * (p.l + p.e * p.h) + p.C * p.h) * ((p.C + p.e * p.D) / p.l) +
      p.C * p.D = -(p.D ^ 2 * p.e) := by field_simp; ring
  rw [this, neg_lt_zero]; positivity

theorem Pos.tau_D (hp : p.Pos) {D' : ℝ} (hD' : p.D < D') :
    p.tau1 < tau1 { p with D := D' } ∧ p.tau2 < tau2 { p with D := D' } := by
  have hp' : TLPar.Pos { p with D := D' } := ⟨hp.C, hp.D.trans hD', hp.l, hp.e, hp.h, hp.dt⟩
  have hk : 0 < p.l + p.e * p.h := by have := hp.l; have := hp.e; have := hp.h; positivity
  obtain ⟨u1, u2⟩ := hp.upper_between
  obtain ⟨v1, v2⟩ := hp'.upper_between
  simp only at v1 v2
  have w1 := (lt_div_iff₀ hk).mp u1
  have w2 := (div_lt_iff₀ hk).mp u2
  constructor
  · have k := hp'.outside (x := p.tau1) (by
      simp only
      have := hp.root1
      nlinarith [mul_pos (sub_pos.mpr hD') (sub_pos.mpr w1)])
    exact k.resolve_right (by linarith)
  · exact (hp'.between (x := p.tau2) (by
      simp only
      have := hp.root2
      nlinarith [mul_pos (sub_pos.mpr hD') (sub_pos.mpr w2)])).2

theorem Pos.tau_C (hp : p.Pos) {C' : ℝ} (hC' : p.C < C') :
    p.tau1 < tau1 { p with C := C' } ∧ p.tau2 < tau2 { p with C := C' } := by
  have hp' : TLPar.Pos { p with C := C' } := ⟨hp.C.trans hC', hp.D, hp.l, hp.e, hp.h, hp.dt⟩
  obtain ⟨u1, u2⟩ := hp.lower_between
  obtain ⟨v1, v2⟩ := hp'.lower_between
  simp only at v1 v2
  have w1 := (lt_div_iff₀ hp.h).mp u1
  have w2 := (div_lt_iff₀ hp.h).mp u2
  constructor
  · have k := hp'.outside (x := p.tau1) (by
      simp only
      have := hp.root1
      nlinarith [mul_pos (sub_pos.mpr hC') (sub_pos.mpr w1)])
    exact k.resolve_right (by linarith)
  · exact (hp'.between (x := p.tau2) (by
      simp only
      have := hp.root2
      nlinarith [mul_pos (sub_pos.mpr hC') (sub_pos.mpr w2)])).2

theorem Pos.tau_l (hp : p.Pos) {l' : ℝ} (hl' : p.l < l') :
    tau1 { p with l := l' } < p.tau1 ∧ tau2 { p with l := l' } < p.tau2 := by
  have hp' : TLPar.Pos { p with l := l' } := ⟨hp.C, hp.D, hp.l.trans hl', hp.e, hp.h, hp.dt⟩
  obtain ⟨u1, u2⟩ := hp.lower_between
  obtain ⟨v1, v2⟩ := hp'.lower_between
  simp only at v1 v2
  have w1 := (lt_div_iff₀ hp.h).mp u1
  have w2 := (div_lt_iff₀ hp.h).mp u2
  constructor
  · exact (hp'.between (x := p.tau1) (by
      simp only
      have := hp.root1
      nlinarith [mul_pos hp.tau1_pos (mul_pos (sub_pos.mpr hl') (sub_pos.mpr w1))])).1
  · have k := hp'.outside (x := p.tau2) (by
      simp only
      have := hp.root2
      nlinarith [mul_pos hp.tau2_pos (mul_pos (sub_pos.mpr hl') (sub_pos.mpr w2))])
    exact k.resolve_left (by linarith)

theorem Pos.tau_h (hp : p.Pos) {h' : ℝ} (hh' : p.h < h') :
    tau1 { p with h := h' } < p.tau1 ∧ tau2 { p with h := h' } < p.tau2 := by
  have hp' : TLPar.Pos { p with h := h' } := ⟨hp.C, hp.D, hp.l, hp.e, hp.h.trans hh', hp.dt⟩
  obtain ⟨u1, u2⟩ := hp.total_between
  obtain ⟨v1, v2⟩ := hp'.total_between
  simp only at v1 v2
  have w1 := (lt_div_iff₀ hp.l).mp u1
  have w2 := (div_lt_iff₀ hp.l).mp u2
  constructor
  · exact (hp'.between (x := p.tau1) (by
      simp only
      have := hp.root1
      nlinarith [mul_pos hp.tau1_pos (mul_pos (sub_pos.mpr hh') (sub_pos.mpr w1))])).1
  · have k := hp'.outside (x := p.tau2) (by
      simp only
      have := hp.root2
      nlinarith [mul_pos hp.tau2_pos (mul_pos (sub_pos.mpr hh') (sub_pos.mpr w2))])
    exact k.resolve_left (by linarith)

theorem Pos.tau_e (hp : p.Pos) {e' : ℝ} (he' : p.e < e') :
    tau1 { p with e := e' } < p.tau1 ∧ p.tau2 < tau2 { p with e := e' } := by
  have hp' : TLPar.Pos { p with e := e' } := ⟨hp.C, hp.D, hp.l, hp.e.trans he', hp.h, hp.dt⟩
  constructor
  · exact (hp'.between (x := p.tau1) (by
      simp only
      have := hp.root1
      nlinarith [mul_pos (mul_pos hp.tau1_pos hp.h) (mul_pos (sub_pos.mpr he') hp.D)])).1
  · exact (hp'.between (x := p.tau2) (by
      simp only
      have := hp.root2
      nlinarith [mul_pos (mul_pos hp.tau2_pos hp.h) (mul_pos (sub_pos.mpr he') hp.D)])).2

/-- a deeper upper layer brings the two timescales closer, as long as it is the faster layer -/
theorem Pos.tau_C_ratio (hp : p.Pos) {C' : ℝ} (hC' : p.C < C') (hfast : C' / (p.l + p.e * p.h) ≤ p.D / p.h) :
    tau2 { p with C := C' } / tau1 { p with C := C' } < p.tau2 / p.tau1 := by
  have hp' : TLPar.Pos { p with C := C' } := ⟨hp.C.trans hC', hp.D, hp.l, hp.e, hp.h, hp.dt⟩
  have hC := hp.C; have hD := hp.D; have hl := hp.l; have he := hp.e; have hh := hp.h
  have hk : 0 < p.l + p.e * p.h := by positivity
  rw [div_le_div_iff₀ hk hh] at hfast
  have s := Geo.tau1_add_tau2 (C := p.C) (D := p.D) (l := p.l) (e := p.e) (h := p.h) hp.C hp.D hp.l hp.e hp.h
  have m := Geo.tau1_mul_tau2 (C := p.C) (D := p.D) (l := p.l) (e := p.e) (h := p.h) hp.C hp.D hp.l hp.e hp.h
  have s' := Geo.tau1_add_tau2 (C := C') (D := p.D) (l := p.l) (e := p.e) (h := p.h) hp'.C hp.D hp.l hp.e hp.h
  have m' := Geo.tau1_mul_tau2 (C := C') (D := p.D) (l := p.l) (e := p.e) (h := p.h) hp'.C hp.D hp.l hp.e hp.h
  have x1 := hp.tau1_pos; have y1 := hp'.tau1_pos
  have x2 := hp.tau2_pos; have y2 := hp'.tau2_pos
  have x3 := hp.tau_lt; have y3 := hp'.tau_lt
  rw [div_lt_div_iff₀ y1 x1]
  simp only [tau1, tau2] at *
  generalize Geo.tau1 p.C p.D p.l p.e p.h = a at *
  generalize Geo.tau2 p.C p.D p.l p.e p.h = b at *
  generalize Geo.tau1 C' p.D p.l p.e p.h = a' at *
  generalize Geo.tau2 C' p.D p.l p.e p.h = b' at *
  have f : (a * a' - b * b') * (a * b' - b * a') = (a + b) ^ 2 * (a' * b') - (a' + b') ^ 2 * (a * b) := by ring
  rw [s, m, s', m'] at f
  have f2 : ((p.C * p.h + (p.l + p.e * p.h) * p.D) / (p.l * p.h)) ^ 2 * (C' * p.D / (p.l * p.h)) -
      ((C' * p.h + (p.l + p.e * p.h) * p.D) / (p.l * p.h)) ^ 2 * (p.C * p.D / (p.l * p.h)) =
      p.D / (p.l * p.h) ^ 3 * ((C' - p.C) * (((p.l + p.e * p.h) * p.D) ^ 2 - p.h ^ 2 * (p.C * C'))) := by
    field_simp; ring
  have f3 : 0 < ((p.l + p.e * p.h) * p.D) ^ 2 - p.h ^ 2 * (p.C * C') := by
    have g1 : C' * p.h ≤ (p.l + p.e * p.h) * p.D := by linarith
    have g2 : p.C * p.h < (p.l + p.e * p.h) * p.D := lt_of_lt_of_le (mul_lt_mul_of_pos_right hC' hh) g1
    have g3 : 0 < (p.l + p.e * p.h) * p.D := by positivity
    have g4 : (p.C * p.h) * (C' * p.h) < ((p.l + p.e * p.h) * p.D) * ((p.l + p.e * p.h) * p.D) :=
      mul_lt_mul g2 g1 (mul_pos (hC.trans hC') hh) g3.le
    nlinarith only [g4]
  have f4 : 0 < (a * a' - b * b') * (a * b' - b * a') := by
    rw [f, f2]
    have := sub_pos.mpr hC'
    positivity
  have f5 : a * a' - b * b' < 0 := by
    have := mul_lt_mul x3 y3.le y1 x2.le
    linarith
  by_contra hc
  push Not at hc
  nlinarith only [f4, f5, mul_nonneg (neg_nonneg.mpr f5.le) (sub_nonneg.mpr hc), hc]

/-- explicit bounds for a deep lower layer -/
theorem Pos.deep_tau (hp : p.Pos) : p.C / (p.l + p.e * p.h + p.C * p.h / p.D) < p.tau1 ∧
    p.D * (p.l + p.e * p.h) / (p.l * p.h) < p.tau2 := by
  have hC := hp.C; have hD := hp.D; have hl := hp.l; have he := hp.e; have hh := hp.h
  have hk : 0 < p.l + p.e * p.h := by positivity
  have s := Geo.tau1_add_tau2 (C := p.C) (D := p.D) (l := p.l) (e := p.e) (h := p.h) hp.C hp.D hp.l hp.e hp.h
  obtain ⟨u1, u2⟩ := hp.upper_between
  constructor
  · refine lt_of_not_ge fun hc => ?_
    have w := hp.root1
    have t := hp.tau1_pos
    have e : p.C / (p.l + p.e * p.h + p.C * p.h / p.D) = p.C * p.D / (p.D * (p.l + p.e * p.h) + p.C * p.h) := by
      field_simp
    rw [e, le_div_iff₀ (by positivity)] at hc
    have : 0 < p.l * p.h * p.tau1 ^ 2 := by positivity
    linarith
  · have e : p.D * (p.l + p.e * p.h) / (p.l * p.h) = p.tau2 + (p.tau1 - p.C / p.l) := by
      have e : p.tau2 + (p.tau1 - p.C / p.l) = (p.tau1 + p.tau2) - p.C / p.l := by ring
      rw [e, tau1, tau2, s]; field_simp; ring
    have : p.C / (p.l + p.e * p.h) ≤ p.C / p.l := by
      apply div_le_div_of_nonneg_left hC.le hl; have := mul_pos he hh; linarith
    rw [e]; linarith

theorem Pos.deep_q (hp : p.Pos) (hdeep : 2 * p.C * p.l * p.h ≤ p.D * (p.l + p.e * p.h) ^ 2) :
    1 / (p.l + p.e * p.h) - 4 * p.C * p.h / ((p.l + p.e * p.h) ^ 2 * p.D) ≤ p.q1 ∧ p.q1 < 1 / (p.l + p.e * p.h) := by
  have hC := hp.C; have hD := hp.D; have hl := hp.l; have he := hp.e; have hh := hp.h
  have hk : 0 < p.l + p.e * p.h := by positivity
  have s : p.tau1 + p.tau2 = (p.C * p.h + (p.l + p.e * p.h) * p.D) / (p.l * p.h) := Geo.tau1_add_tau2 hp.C hp.D hp.l hp.e hp.h
  have qs := hp.q_sum
  have qc : p.q1 * p.tau2 + p.q2 * p.tau1 = p.D / (p.l * p.h) := Geo.q_tau_cross hp.C hp.D hp.l hp.e hp.h
  obtain ⟨u1, u2⟩ := hp.upper_between
  have t1 := hp.tau1_pos
  have t2 := hp.deep_tau.2
  have tl := hp.tau_lt
  have eq1 : (1 / (p.l + p.e * p.h) - p.q1) * (p.tau2 - p.tau1) =
      (p.C - (p.l - p.e * p.h) * p.tau1) / (p.l * (p.l + p.e * p.h)) := by
    have : p.q2 = 1 / p.l - p.q1 := by linarith
    rw [this] at qc
    have e1 : p.q1 * (p.tau2 - p.tau1) = p.D / (p.l * p.h) - p.tau1 / p.l := by
      have : p.q1 * (p.tau2 - p.tau1) = p.q1 * p.tau2 + (1 / p.l - p.q1) * p.tau1 - p.tau1 / p.l := by ring
      rw [this, qc]
    have e2 : p.tau2 - p.tau1 = (p.C * p.h + (p.l + p.e * p.h) * p.D) / (p.l * p.h) - 2 * p.tau1 := by rw [← s]; ring
    rw [sub_mul, e1, e2]; field_simp; ring
  have w1 := (lt_div_iff₀ hk).mp u1
  have heh := mul_pos he hh
  have num0 : 0 < p.C - (p.l - p.e * p.h) * p.tau1 := by nlinarith only [w1, mul_pos heh t1]
  have num1 : p.C - (p.l - p.e * p.h) * p.tau1 ≤ 2 * p.C := by nlinarith only [w1, mul_pos hl t1]
  have hsub : 0 < p.tau2 - p.tau1 := by linarith
  have hsub2 : p.D * (p.l + p.e * p.h) / (2 * (p.l * p.h)) ≤ p.tau2 - p.tau1 := by
    have : p.C / (p.l + p.e * p.h) ≤ p.D * (p.l + p.e * p.h) / (2 * (p.l * p.h)) := by
      rw [div_le_div_iff₀ hk (by positivity)]; nlinarith only [hdeep]
    have e : p.D * (p.l + p.e * p.h) / (p.l * p.h) = 2 * (p.D * (p.l + p.e * p.h) / (2 * (p.l * p.h))) := by
      field_simp
    linarith
  constructor
  · have e : 4 * p.C * p.h / ((p.l + p.e * p.h) ^ 2 * p.D) * (p.D * (p.l + p.e * p.h) / (2 * (p.l * p.h))) =
        2 * p.C / (p.l * (p.l + p.e * p.h)) := by field_simp; ring
    have k1 := mul_le_mul_of_nonneg_left hsub2 (by positivity : 0 ≤ 4 * p.C * p.h / ((p.l + p.e * p.h) ^ 2 * p.D))
    rw [e] at k1
    have k2 : (p.C - (p.l - p.e * p.h) * p.tau1) / (p.l * (p.l + p.e * p.h)) ≤ 2 * p.C / (p.l * (p.l + p.e * p.h)) :=
      div_le_div_of_nonneg_right num1 (by positivity)
    have k3 := le_of_mul_le_mul_right ((eq1.le.trans k2).trans k1) hsub
    linarith
  · have : 0 < (1 / (p.l + p.e * p.h) - p.q1) * (p.tau2 - p.tau1) := by rw [eq1]; positivity
    have := (mul_pos_iff_of_pos_right hsub).mp this
    linarith

end TLPar
end TwoLayer
