import Verif.Proofs.Exact
import Mathlib.Analysis.SpecificLimits.Normed

/-! # The two-layer difference equations -/

set_option linter.unusedSimpArgs false
set_option linter.unusedSectionVars false

namespace TwoLayer
namespace TLPar

theorem Pos.ok {p : TLPar} (h : p.Pos) : p.Ok := ⟨h.C.ne', h.D.ne', h.dt.ne'⟩
theorem Resolved.ok {p : TLPar} (h : p.Resolved) : p.Ok := ⟨h.C.ne', h.D.ne', h.dt.ne'⟩

variable {p : TLPar} {F G : ℕ → ℝ}

theorem T_step (hC : p.C ≠ 0) (F : ℕ → ℝ) (i : ℕ) : p.C * p.T F (i + 1) =
    (p.C - p.dt * (p.l + p.e * p.h)) * p.T F i + p.dt * (F i + p.a * p.T F i ^ 2 + p.e * p.h * p.TD F i) := by
  rw [T_succ]; field_simp; ring

theorem TD_step (hD : p.D ≠ 0) (F : ℕ → ℝ) (i : ℕ) : p.D * p.TD F (i + 1) =
    (p.D - p.dt * p.h) * p.TD F i + p.dt * p.h * p.T F i := by
  rw [TD_succ]; field_simp; ring

/-- values up to `k` depend only on forcing before `k` -/
theorem congr_upto {k : ℕ} (h : ∀ i < k, F i = G i) :
    ∀ i ≤ k, p.T F i = p.T G i ∧ p.TD F i = p.TD G i ∧ p.U F i = p.U G i := by
  intro i
  induction i with
  | zero => intro _; simp
  | succ i ih =>
    intro hi
    obtain ⟨a, b, _⟩ := ih (by omega)
    have hT : p.T F (i + 1) = p.T G (i + 1) := by rw [T_succ, T_succ, a, b, h i (by omega)]
    have hD : p.TD F (i + 1) = p.TD G (i + 1) := by rw [TD_succ, TD_succ, a, b]
    refine ⟨hT, hD, ?_⟩
    rw [U_succ, U_succ, hT, hD, a, b]

theorem zero_upto {k : ℕ} (h : ∀ i < k, F i = 0) : ∀ i ≤ k, p.T F i = 0 ∧ p.TD F i = 0 ∧ p.U F i = 0 := by
  have key : ∀ i, p.T (fun _ => 0) i = 0 ∧ p.TD (fun _ => 0) i = 0 ∧ p.U (fun _ => 0) i = 0 := by
    intro i
    induction i with
    | zero => simp
    | succ i ih =>
      obtain ⟨a, b, _⟩ := ih
      have hT : p.T (fun _ => 0) (i + 1) = 0 := by rw [T_succ, a, b]; simp
      have hD : p.TD (fun _ => 0) (i + 1) = 0 := by rw [TD_succ, a, b]; simp
      refine ⟨hT, hD, ?_⟩
      rw [U_succ, hT, hD, a, b]; simp
  intro i hi
  obtain ⟨a, b, c⟩ := congr_upto (p := p) h i hi
  rw [a, b, c]; exact key i

/-- delaying the forcing delays the response -/
theorem shift {k : ℕ} (h0 : ∀ i < k, G i = 0) (h1 : ∀ i, G (k + i) = F i) :
    ∀ i, p.T G (k + i) = p.T F i ∧ p.TD G (k + i) = p.TD F i ∧ (p.U G (k + i) = p.U F i) := by
  intro i
  induction i with
  | zero => exact zero_upto h0 k le_rfl
  | succ i ih =>
    obtain ⟨a, b, _⟩ := ih
    have hT : p.T G (k + (i + 1)) = p.T F (i + 1) := by rw [← Nat.add_assoc, T_succ, T_succ, a, b, h1]
    have hD : p.TD G (k + (i + 1)) = p.TD F (i + 1) := by rw [← Nat.add_assoc, TD_succ, TD_succ, a, b]
    refine ⟨hT, hD, ?_⟩
    rw [← Nat.add_assoc] at hT hD ⊢
    rw [U_succ, U_succ, hT, hD, a, b]

/-- linearity -/
theorem linear (ha : p.a = 0) (x y : ℝ) (F G : ℕ → ℝ) (i : ℕ) :
    p.T (fun j => x * F j + y * G j) i = x * p.T F i + y * p.T G i ∧
    p.TD (fun j => x * F j + y * G j) i = x * p.TD F i + y * p.TD G i ∧
    p.U (fun j => x * F j + y * G j) i = x * p.U F i + y * p.U G i := by
  induction i with
  | zero => simp
  | succ i ih =>
    obtain ⟨a, b, _⟩ := ih
    have hT : p.T (fun j => x * F j + y * G j) (i + 1) = x * p.T F (i + 1) + y * p.T G (i + 1) := by
      rw [T_succ, T_succ, T_succ, a, b, ha]; ring
    have hD : p.TD (fun j => x * F j + y * G j) (i + 1) = x * p.TD F (i + 1) + y * p.TD G (i + 1) := by
      rw [TD_succ, TD_succ, TD_succ, a, b]; ring
    refine ⟨hT, hD, ?_⟩
    rw [U_succ, U_succ, U_succ, hT, hD, a, b]; ring

/-- heat uptake as energy imbalance -/
theorem uptake (hp : p.Ok) (F : ℕ → ℝ) (i : ℕ) : p.U F (i + 1) =
    F i - (p.l - p.a * p.T F i) * p.T F i - (p.e - 1) * p.h * (p.T F i - p.TD F i) := by
  have := hp.C; have := hp.D; have := hp.dt
  rw [U_succ, T_succ, TD_succ]; field_simp; ring

/-- energy conservation -/
theorem energy (hp : p.Ok) (F : ℕ → ℝ) (i : ℕ) :
    p.dt * ∑ j ∈ Finset.range (i + 1), p.U F j = p.C * p.T F i + p.D * p.TD F i := by
  have := hp.dt
  induction i with
  | zero => simp
  | succ i ih =>
    rw [Finset.sum_range_succ, mul_add, ih, U_succ]; field_simp; ring

/-- one layer when `eta = 0` -/
theorem one_layer (hh : p.h = 0) (F : ℕ → ℝ) (i : ℕ) : p.TD F i = 0 := by
  induction i with
  | zero => simp
  | succ i ih => rw [TD_succ, hh, ih]; simp

theorem one_layer_congr {p' : TLPar} (hh : p.h = 0) (hh' : p'.h = 0) (hC : p'.C = p.C) (hl : p'.l = p.l)
    (ha : p'.a = p.a) (hdt : p'.dt = p.dt) (F : ℕ → ℝ) (i : ℕ) : p'.T F i = p.T F i ∧ p'.U F i = p.U F i := by
  have hT : ∀ i, p'.T F i = p.T F i := by
    intro i
    induction i with
    | zero => simp
    | succ i ih => rw [T_succ, T_succ, ih, hh, hh', hC, hl, ha, hdt]; simp
  refine ⟨hT i, ?_⟩
  cases i with
  | zero => simp
  | succ i => rw [U_succ, U_succ, hT, hT, one_layer hh, one_layer hh, one_layer hh', one_layer hh', hC, hdt]; simp

/-- efficacy rescaling -/
theorem rescale {p' : TLPar} {k : ℝ} (hk : k ≠ 0) (hD : p.D ≠ 0) (he : p'.e = k * p.e) (hh : p'.h = p.h / k)
    (hD' : p'.D = p.D / k) (hC : p'.C = p.C) (hl : p'.l = p.l) (ha : p'.a = p.a) (hdt : p'.dt = p.dt)
    (F : ℕ → ℝ) (i : ℕ) : p'.T F i = p.T F i ∧ p'.TD F i = p.TD F i := by
  induction i with
  | zero => simp
  | succ i ih =>
    obtain ⟨a, b⟩ := ih
    constructor
    · rw [T_succ, T_succ, a, b, hC, hl, ha, hdt, he, hh]; field_simp
    · rw [TD_succ, TD_succ, a, b, hdt, hh, hD']; field_simp

/-! ## Comparison -/

theorem bounds (hr : p.Resolved) (ha : p.a = 0) {lo hi : ℝ} (hlo : lo ≤ 0) (hhi : 0 ≤ hi) {k : ℕ}
    (hF : ∀ i < k, lo ≤ F i ∧ F i ≤ hi) :
    ∀ i ≤ k, (lo / p.l ≤ p.T F i ∧ p.T F i ≤ hi / p.l) ∧ (lo / p.l ≤ p.TD F i ∧ p.TD F i ≤ hi / p.l) := by
  have hl := hr.l; have hC := hr.C; have hD := hr.D; have hdt := hr.dt
  have hA : 0 ≤ p.C - p.dt * (p.l + p.e * p.h) := by linarith [hr.upper]
  have hB : 0 ≤ p.D - p.dt * p.h := by linarith [hr.lower]
  have heh : 0 ≤ p.dt * (p.e * p.h) := mul_nonneg hdt.le (mul_nonneg hr.e hr.h)
  have hdh : 0 ≤ p.dt * p.h := mul_nonneg hdt.le hr.h
  have e1 : p.l * (lo / p.l) = lo := by field_simp
  have e2 : p.l * (hi / p.l) = hi := by field_simp
  generalize hL : lo / p.l = Lo at *
  generalize hH : hi / p.l = Hi at *
  intro i
  induction i with
  | zero =>
    intro _
    have : Lo ≤ 0 := by rw [← hL]; exact div_nonpos_of_nonpos_of_nonneg hlo hl.le
    have : 0 ≤ Hi := by rw [← hH]; exact div_nonneg hhi hl.le
    simp only [T_zero, TD_zero]
    exact ⟨⟨by assumption, by assumption⟩, by assumption, by assumption⟩
  | succ i ih =>
    intro hi'
    obtain ⟨⟨t1, t2⟩, d1, d2⟩ := ih (by omega)
    obtain ⟨f1, f2⟩ := hF i (by omega)
    have hT := T_step hC.ne' F i
    have hTD := TD_step hD.ne' F i
    rw [ha] at hT
    have m1 := mul_le_mul_of_nonneg_left t1 hA
    have m2 := mul_le_mul_of_nonneg_left t2 hA
    have m3 := mul_le_mul_of_nonneg_left d1 heh
    have m4 := mul_le_mul_of_nonneg_left d2 heh
    have m5 := mul_le_mul_of_nonneg_left f1 hdt.le
    have m6 := mul_le_mul_of_nonneg_left f2 hdt.le
    have m7 := mul_le_mul_of_nonneg_left d1 hB
    have m8 := mul_le_mul_of_nonneg_left d2 hB
    have m9 := mul_le_mul_of_nonneg_left t1 hdh
    have m10 := mul_le_mul_of_nonneg_left t2 hdh
    refine ⟨⟨?_, ?_⟩, ?_, ?_⟩
    · refine le_of_mul_le_mul_left ?_ hC
      rw [hT]; rw [← e1] at m5; linarith
    · refine le_of_mul_le_mul_left ?_ hC
      rw [hT]; rw [← e2] at m6; linarith
    · refine le_of_mul_le_mul_left ?_ hD
      rw [hTD]; linarith
    · refine le_of_mul_le_mul_left ?_ hD
      rw [hTD]; linarith

theorem mono (hr : p.Resolved) (ha : p.a = 0) {k : ℕ} (hF : ∀ i < k, F i ≤ G i) :
    ∀ i ≤ k, p.T F i ≤ p.T G i ∧ p.TD F i ≤ p.TD G i := by
  have hC := hr.C; have hD := hr.D; have hdt := hr.dt
  have hA : 0 ≤ p.C - p.dt * (p.l + p.e * p.h) := by linarith [hr.upper]
  have hB : 0 ≤ p.D - p.dt * p.h := by linarith [hr.lower]
  have heh : 0 ≤ p.dt * (p.e * p.h) := mul_nonneg hdt.le (mul_nonneg hr.e hr.h)
  have hdh : 0 ≤ p.dt * p.h := mul_nonneg hdt.le hr.h
  intro i
  induction i with
  | zero => intro _; simp
  | succ i ih =>
    intro hi
    obtain ⟨t, d⟩ := ih (by omega)
    have f := hF i (by omega)
    have hT := T_step hC.ne' F i
    have hT' := T_step hC.ne' G i
    rw [ha] at hT hT'
    have hTD := TD_step hD.ne' F i
    have hTD' := TD_step hD.ne' G i
    have m1 := mul_le_mul_of_nonneg_left t hA
    have m2 := mul_le_mul_of_nonneg_left d heh
    have m3 := mul_le_mul_of_nonneg_left f hdt.le
    have m4 := mul_le_mul_of_nonneg_left d hB
    have m5 := mul_le_mul_of_nonneg_left t hdh
    constructor
    · refine le_of_mul_le_mul_left ?_ hC
      rw [hT, hT']; linarith
    · refine le_of_mul_le_mul_left ?_ hD
      rw [hTD, hTD']; linarith

/-- state dependence amplifies; also monotone in forcing -/
theorem mono_a (hr : p.Resolved) {p' : TLPar} (hp' : p' = { p with a := p'.a }) (ha : 0 ≤ p.a) (haa : p.a ≤ p'.a)
    {k : ℕ} (h0 : ∀ i < k, 0 ≤ F i) (hF : ∀ i < k, F i ≤ G i) :
    ∀ i ≤ k, (0 ≤ p.T F i ∧ 0 ≤ p.TD F i) ∧ p.T F i ≤ p'.T G i ∧ p.TD F i ≤ p'.TD G i := by
  have hC := hr.C; have hD := hr.D; have hdt := hr.dt
  have hA : 0 ≤ p.C - p.dt * (p.l + p.e * p.h) := by linarith [hr.upper]
  have hB : 0 ≤ p.D - p.dt * p.h := by linarith [hr.lower]
  have heh : 0 ≤ p.dt * (p.e * p.h) := mul_nonneg hdt.le (mul_nonneg hr.e hr.h)
  have hdh : 0 ≤ p.dt * p.h := mul_nonneg hdt.le hr.h
  obtain ⟨a', rfl⟩ : ∃ a', p' = { p with a := a' } := ⟨p'.a, hp'⟩
  simp only at haa
  intro i
  induction i with
  | zero => intro _; simp
  | succ i ih =>
    intro hi
    obtain ⟨⟨z1, z2⟩, t, d⟩ := ih (by omega)
    have f := hF i (by omega)
    have f0 := h0 i (by omega)
    have hT := T_step hC.ne' F i
    have hT' := T_step (p := { p with a := a' }) hC.ne' G i
    have hTD := TD_step hD.ne' F i
    have hTD' := TD_step (p := { p with a := a' }) hD.ne' G i
    simp only at hT' hTD'
    generalize TLPar.T { p with a := a' } G i = tg at *
    generalize TLPar.T { p with a := a' } G (i+1) = tg' at *
    generalize TLPar.TD { p with a := a' } G i = dg at *
    generalize TLPar.TD { p with a := a' } G (i+1) = dg' at *
    have sq : p.T F i ^ 2 ≤ tg ^ 2 := by nlinarith
    have hsq : p.a * p.T F i ^ 2 ≤ a' * tg ^ 2 := mul_le_mul haa sq (sq_nonneg _) (ha.trans haa)
    have m1 := mul_le_mul_of_nonneg_left t hA
    have m2 := mul_le_mul_of_nonneg_left d heh
    have m3 := mul_le_mul_of_nonneg_left f hdt.le
    have m4 := mul_le_mul_of_nonneg_left d hB
    have m5 := mul_le_mul_of_nonneg_left t hdh
    have m6 := mul_le_mul_of_nonneg_left hsq hdt.le
    have n1 := mul_nonneg hA z1
    have n2 := mul_nonneg heh z2
    have n3 := mul_nonneg hdt.le f0
    have n4 := mul_nonneg hB z2
    have n5 := mul_nonneg hdh z1
    have n6 : 0 ≤ p.dt * (p.a * p.T F i ^ 2) := by positivity
    refine ⟨⟨?_, ?_⟩, ?_, ?_⟩
    · refine le_of_mul_le_mul_left ?_ hC
      rw [hT]; linarith
    · refine le_of_mul_le_mul_left ?_ hD
      rw [hTD]; linarith
    · refine le_of_mul_le_mul_left ?_ hC
      rw [hT, hT']; linarith
    · refine le_of_mul_le_mul_left ?_ hD
      rw [hTD, hTD']; linarith

/-! ## Runaway -/

theorem incr (hr : p.Resolved) (ha : 0 ≤ p.a) {c : ℝ} (hc : 0 ≤ c) (i : ℕ) :
    p.T (fun _ => c) i ≤ p.T (fun _ => c) (i + 1) ∧ p.TD (fun _ => c) i ≤ p.T (fun _ => c) i := by
  -- compare with the run delayed by one step
  have hsh := shift (p := p) (F := fun _ => c) (G := fun i => if i < 1 then 0 else c) (k := 1)
    (fun i hi => by simp [hi]) (fun i => by simp)
  have hle := mono_a (p' := p) hr rfl ha le_rfl (F := fun i => if i < 1 then 0 else c) (G := fun _ => c) (k := i + 1)
    (fun i _ => by split <;> simp [hc]) (fun i _ => by split <;> simp [hc])
  have h1 : ∀ j ≤ i, p.T (fun _ => c) j ≤ p.T (fun _ => c) (j + 1) := by
    intro j hj
    have := (hle (j + 1) (by omega)).2.1
    rw [Nat.add_comm j 1, (hsh j).1] at this
    rwa [Nat.add_comm 1 j] at this
  refine ⟨h1 i le_rfl, ?_⟩
  have hD := hr.D
  have key : ∀ j ≤ i, p.TD (fun _ => c) j ≤ p.T (fun _ => c) j := by
    intro j
    induction j with
    | zero => intro _; simp
    | succ j ih =>
      intro hj
      have t := h1 j (by omega)
      have d := ih (by omega)
      refine le_trans ?_ t
      refine le_of_mul_le_mul_left ?_ hD
      rw [TD_step hD.ne']
      have hB : 0 ≤ p.D - p.dt * p.h := by linarith [hr.lower]
      have := mul_le_mul_of_nonneg_left d hB
      linarith
  exact key i le_rfl

theorem runaway (hr : p.Resolved) (ha : 0 < p.a) {c : ℝ} (hc : p.l ^ 2 / (4 * p.a) < c) (i : ℕ) :
    p.dt * (c - p.l ^ 2 / (4 * p.a)) / (p.C + p.e * p.D) * i ≤ p.T (fun _ => c) i := by
  have hC := hr.C; have hD := hr.D; have hdt := hr.dt; have he := hr.e
  have hc0 : 0 ≤ c := le_trans (by positivity) hc.le
  have hS : ∀ i : ℕ, p.dt * (c - p.l ^ 2 / (4 * p.a)) * i ≤
      p.C * p.T (fun _ => c) i + p.e * (p.D * p.TD (fun _ => c) i) := by
    intro i
    induction i with
    | zero => simp
    | succ i ih =>
      rw [T_step hC.ne', TD_step hD.ne']
      have hq : 0 ≤ p.a * p.T (fun _ => c) i ^ 2 - p.l * p.T (fun _ => c) i + p.l ^ 2 / (4 * p.a) := by
        have : p.a * p.T (fun _ => c) i ^ 2 - p.l * p.T (fun _ => c) i + p.l ^ 2 / (4 * p.a) =
          p.a * (p.T (fun _ => c) i - p.l / (2 * p.a)) ^ 2 := by field_simp; ring
        rw [this]; positivity
      have := mul_nonneg hdt.le hq
      push_cast
      linarith
  have h1 := hS i
  have h2 := (incr hr ha.le hc0 i).2
  have h3 := mul_le_mul_of_nonneg_left h2 (mul_nonneg he hD.le)
  have hpos : 0 < p.C + p.e * p.D := by positivity
  rw [div_mul_eq_mul_div, div_le_iff₀ hpos]
  linarith

/-! ## Modes -/

/-- forward Euler for one box -/
noncomputable def eul (q τ dt : ℝ) (F : ℕ → ℝ) : ℕ → ℝ
  | 0 => 0
  | i + 1 => eul q τ dt F i + dt / τ * (q * F i - eul q τ dt F i)

theorem eul_const (q τ dt c : ℝ) (i : ℕ) : eul q τ dt (fun _ => c) i = q * c * (1 - (1 - dt / τ) ^ i) := by
  induction i with
  | zero => simp [eul]
  | succ i ih => rw [eul, ih, pow_succ]; ring

/-- impulse response coefficients of the two modes -/
noncomputable def q1 (p : TLPar) : ℝ := Geo.q1 p.C p.D p.l p.e p.h
/-- slow mode -/
noncomputable def q2 (p : TLPar) : ℝ := Geo.q2 p.C p.D p.l p.e p.h
/-- fast mode -/
noncomputable def phi1 (p : TLPar) : ℝ := Geo.phi1 p.C p.D p.l p.e p.h
/-- slow mode -/
noncomputable def phi2 (p : TLPar) : ℝ := Geo.phi2 p.C p.D p.l p.e p.h

theorem modes (hp : p.Pos) (ha : p.a = 0) (F : ℕ → ℝ) (i : ℕ) :
    p.T F i = eul p.q1 p.tau1 p.dt F i + eul p.q2 p.tau2 p.dt F i ∧
    p.TD F i = p.phi1 * eul p.q1 p.tau1 p.dt F i + p.phi2 * eul p.q2 p.tau2 p.dt F i := by
  have hC := hp.C; have hD := hp.D; have hl := hp.l; have he := hp.e; have hh := hp.h
  have u1 : (p.l + p.e * p.h * (1 - p.phi1)) * p.tau1 = p.C := Geo.mode_upper1 hC hD hl he hh
  have u2 : (p.l + p.e * p.h * (1 - p.phi2)) * p.tau2 = p.C := Geo.mode_upper2 hC hD hl he hh
  have l1 : p.phi1 * (p.h * p.tau1 - p.D) = p.h * p.tau1 := Geo.mode_lower1 hC hD hl he hh
  have l2 : p.phi2 * (p.h * p.tau2 - p.D) = p.h * p.tau2 := Geo.mode_lower2 hC hD hl he hh
  have s1 : p.q1 / p.tau1 + p.q2 / p.tau2 = 1 / p.C := Geo.q_over_tau hC hD hl he hh
  have s2 : p.phi1 * p.q1 / p.tau1 + p.phi2 * p.q2 / p.tau2 = 0 := Geo.phi_q_over_tau hC hD hl he hh
  have t1 : 0 < p.tau1 := Geo.tau1_pos hC hD hl he hh
  have t2 : 0 < p.tau2 := Geo.tau2_pos hC hD hl he hh
  have u1' : p.l + p.e * p.h * (1 - p.phi1) = p.C / p.tau1 := by rw [eq_div_iff t1.ne']; exact u1
  have u2' : p.l + p.e * p.h * (1 - p.phi2) = p.C / p.tau2 := by rw [eq_div_iff t2.ne']; exact u2
  have l1' : p.h * (1 - p.phi1) = - (p.phi1 * p.D / p.tau1) := by
    rw [eq_neg_iff_add_eq_zero, add_comm, div_add' _ _ _ t1.ne', div_eq_zero_iff]; left; linarith
  have l2' : p.h * (1 - p.phi2) = - (p.phi2 * p.D / p.tau2) := by
    rw [eq_neg_iff_add_eq_zero, add_comm, div_add' _ _ _ t2.ne', div_eq_zero_iff]; left; linarith
  induction i with
  | zero => simp [eul]
  | succ i ih =>
    obtain ⟨a, b⟩ := ih
    rw [T_succ, TD_succ, a, b, ha, eul, eul]
    generalize eul p.q1 p.tau1 p.dt F i = y1
    generalize eul p.q2 p.tau2 p.dt F i = y2
    constructor
    · have e : F i - (p.l - 0 * (y1 + y2)) * (y1 + y2) - p.e * p.h * (y1 + y2 - (p.phi1 * y1 + p.phi2 * y2)) =
        F i - (p.l + p.e * p.h * (1 - p.phi1)) * y1 - (p.l + p.e * p.h * (1 - p.phi2)) * y2 := by ring
      rw [e, u1', u2']
      have e2 : (F i - p.C / p.tau1 * y1 - p.C / p.tau2 * y2) / p.C = 1 / p.C * F i - y1 / p.tau1 - y2 / p.tau2 := by
        field_simp
      rw [e2, ← s1]
      field_simp; ring
    · have e : p.h * (y1 + y2 - (p.phi1 * y1 + p.phi2 * y2)) = p.h * (1 - p.phi1) * y1 + p.h * (1 - p.phi2) * y2 := by
        ring
      rw [e, l1', l2']
      have e2 : (-(p.phi1 * p.D / p.tau1) * y1 + -(p.phi2 * p.D / p.tau2) * y2) / p.D =
          (p.phi1 * p.q1 / p.tau1 + p.phi2 * p.q2 / p.tau2) * F i - p.phi1 * y1 / p.tau1 - p.phi2 * y2 / p.tau2 := by
        rw [s2]; field_simp; ring
      rw [e2]
      field_simp; ring

/-! ## Constant forcing -/

theorem Pos.tau1_pos (hp : p.Pos) : 0 < p.tau1 := Geo.tau1_pos hp.C hp.D hp.l hp.e hp.h
theorem Pos.tau2_pos (hp : p.Pos) : 0 < p.tau2 := Geo.tau2_pos hp.C hp.D hp.l hp.e hp.h
theorem Pos.tau_lt (hp : p.Pos) : p.tau1 < p.tau2 := Geo.tau1_lt_tau2 hp.C hp.D hp.l hp.e hp.h
theorem Pos.q1_pos (hp : p.Pos) : 0 < p.q1 := Geo.q1_pos hp.C hp.D hp.l hp.e hp.h
theorem Pos.q2_pos (hp : p.Pos) : 0 < p.q2 := Geo.q2_pos hp.C hp.D hp.l hp.e hp.h
theorem Pos.q_sum (hp : p.Pos) : p.q1 + p.q2 = 1 / p.l := Geo.q_sum hp.C hp.D hp.l hp.e hp.h
theorem Pos.phi_q_sum (hp : p.Pos) : p.phi1 * p.q1 + p.phi2 * p.q2 = 1 / p.l :=
  Geo.phi_q_sum hp.C hp.D hp.l hp.e hp.h

/-- sum of the decay rates -/
theorem Pos.rates (hp : p.Pos) : 1 / p.tau1 + 1 / p.tau2 = (p.l + p.e * p.h) / p.C + p.h / p.D := by
  have h1 : p.tau1 * p.tau2 = p.C * p.D / (p.l * p.h) := Geo.tau1_mul_tau2 hp.C hp.D hp.l hp.e hp.h
  have h2 : p.tau1 + p.tau2 = (p.C * p.h + (p.l + p.e * p.h) * p.D) / (p.l * p.h) :=
    Geo.tau1_add_tau2 hp.C hp.D hp.l hp.e hp.h
  have t1 := hp.tau1_pos.ne'; have t2 := hp.tau2_pos.ne'
  have := hp.C.ne'; have := hp.D.ne'; have := hp.l.ne'; have := hp.h.ne'
  have e : 1 / p.tau1 + 1 / p.tau2 = (p.tau1 + p.tau2) / (p.tau1 * p.tau2) := by field_simp; ring
  rw [e, h1, h2]
  field_simp; ring

/-- a step that resolves both layers is shorter than twice the fast timescale -/
theorem Pos.resolved_lt (hp : p.Pos) (hr : p.Resolved) : p.dt < 2 * p.tau1 := by
  have h := hp.rates
  have t1 := hp.tau1_pos; have t2 := hp.tau2_pos
  have h1 : p.dt * ((p.l + p.e * p.h) / p.C) ≤ 1 := by
    rw [← mul_div_assoc, div_le_one hp.C]; exact hr.upper
  have h2 : p.dt * (p.h / p.D) ≤ 1 := by
    rw [← mul_div_assoc, div_le_one hp.D]; exact hr.lower
  have h3 : p.dt * (1 / p.tau1) < 2 := by
    have : 0 < p.dt * (1 / p.tau2) := by have := hp.dt; positivity
    have e : p.dt * (1 / p.tau1) + p.dt * (1 / p.tau2) = p.dt * ((p.l + p.e * p.h) / p.C) + p.dt * (p.h / p.D) := by
      rw [← mul_add, h, mul_add]
    linarith
  rwa [mul_one_div, div_lt_iff₀ t1] at h3

/-- response to constant forcing -/
theorem const_T (hp : p.Pos) (ha : p.a = 0) (c : ℝ) (i : ℕ) :
    p.T (fun _ => c) i = c / p.l - c * (p.q1 * (1 - p.dt / p.tau1) ^ i + p.q2 * (1 - p.dt / p.tau2) ^ i) := by
  rw [(modes hp ha _ i).1, eul_const, eul_const]
  have : c / p.l = c * (p.q1 + p.q2) := by rw [hp.q_sum]; ring
  rw [this]; ring

theorem const_TD (hp : p.Pos) (ha : p.a = 0) (c : ℝ) (i : ℕ) :
    p.TD (fun _ => c) i = c / p.l - c * (p.phi1 * p.q1 * (1 - p.dt / p.tau1) ^ i +
      p.phi2 * p.q2 * (1 - p.dt / p.tau2) ^ i) := by
  rw [(modes hp ha _ i).2, eul_const, eul_const]
  have : c / p.l = c * (p.phi1 * p.q1 + p.phi2 * p.q2) := by rw [hp.phi_q_sum]; ring
  rw [this]; ring

theorem comb_bound {A B x y r : ℝ} (hx : |x| ≤ r) (hy : |y| ≤ r) (i : ℕ) :
    |A * x ^ i + B * y ^ i| ≤ (|A| + |B|) * r ^ i := by
  refine (abs_add_le _ _).trans ?_
  rw [abs_mul, abs_mul, abs_pow, abs_pow, add_mul]
  exact add_le_add (mul_le_mul_of_nonneg_left (pow_le_pow_left₀ (abs_nonneg _) hx i) (abs_nonneg _))
    (mul_le_mul_of_nonneg_left (pow_le_pow_left₀ (abs_nonneg _) hy i) (abs_nonneg _))

/-- the slower of the two convergence factors per step -/
noncomputable def rate (p : TLPar) : ℝ := max |1 - p.dt / p.tau1| |1 - p.dt / p.tau2|

theorem rate_lt (hp : p.Pos) (h : p.dt < 2 * p.tau1) : p.rate < 1 := by
  have t1 := hp.tau1_pos; have t2 := hp.tau2_pos; have ht := hp.tau_lt; have hd := hp.dt
  have a1 : 0 < p.dt / p.tau1 := by positivity
  have a2 : 0 < p.dt / p.tau2 := by positivity
  have b1 : p.dt / p.tau1 < 2 := by rw [div_lt_iff₀ t1]; exact h
  have b2 : p.dt / p.tau2 < 2 := by rw [div_lt_iff₀ t2]; linarith
  unfold rate
  rw [max_lt_iff, abs_lt, abs_lt]
  refine ⟨⟨by linarith, by linarith⟩, by linarith, by linarith⟩

theorem converge (hp : p.Pos) (ha : p.a = 0) (c : ℝ) :
    ∃ K, ∀ i, |p.T (fun _ => c) i - c / p.l| ≤ |c| / p.l * p.rate ^ i ∧
      |p.TD (fun _ => c) i - c / p.l| ≤ K * p.rate ^ i ∧ |p.U (fun _ => c) (i + 1)| ≤ K * p.rate ^ i := by
  set x := 1 - p.dt / p.tau1 with hx
  set y := 1 - p.dt / p.tau2 with hy
  have hxr : |x| ≤ p.rate := le_max_left _ _
  have hyr : |y| ≤ p.rate := le_max_right _ _
  have hr0 : 0 ≤ p.rate := (abs_nonneg _).trans hxr
  refine ⟨max (|c| * (|p.phi1 * p.q1| + |p.phi2 * p.q2|))
    (|c * (p.l * p.q1 + (p.e - 1) * p.h * (p.q1 - p.phi1 * p.q1))| +
     |c * (p.l * p.q2 + (p.e - 1) * p.h * (p.q2 - p.phi2 * p.q2))|), fun i => ⟨?_, ?_, ?_⟩⟩
  · rw [const_T hp ha, sub_sub_cancel_left, abs_neg, abs_mul, div_mul_eq_mul_div, mul_div_assoc]
    refine mul_le_mul_of_nonneg_left ?_ (abs_nonneg _)
    refine (comb_bound hxr hyr i).trans (le_of_eq ?_)
    rw [abs_of_pos hp.q1_pos, abs_of_pos hp.q2_pos, hp.q_sum]; ring
  · rw [const_TD hp ha, sub_sub_cancel_left, abs_neg, abs_mul]
    refine le_trans ?_ (mul_le_mul_of_nonneg_right (le_max_left _ _) (pow_nonneg hr0 i))
    rw [mul_assoc |c|]
    exact mul_le_mul_of_nonneg_left (comb_bound hxr hyr i) (abs_nonneg _)
  · rw [uptake hp.ok, ha, const_T hp ha, const_TD hp ha]
    refine le_trans ?_ (mul_le_mul_of_nonneg_right (le_max_right _ _) (pow_nonneg hr0 i))
    refine le_trans (le_of_eq ?_) (comb_bound hxr hyr i)
    congr 1
    have := hp.l.ne'
    field_simp; ring

theorem diverge (hp : p.Pos) (ha : p.a = 0) (h : 2 * p.tau1 < p.dt) {c : ℝ} (hc : c ≠ 0) :
    Filter.Tendsto (fun i => |p.T (fun _ => c) i|) Filter.atTop Filter.atTop := by
  have t1 := hp.tau1_pos; have t2 := hp.tau2_pos; have ht := hp.tau_lt; have hd := hp.dt
  set x := 1 - p.dt / p.tau1 with hx
  set y := 1 - p.dt / p.tau2 with hy
  have hx1 : x < -1 := by
    have : 2 < p.dt / p.tau1 := by rw [lt_div_iff₀ t1]; exact h
    linarith
  have hyx : x < y := by
    have : p.dt / p.tau2 < p.dt / p.tau1 := div_lt_div_of_pos_left hd t1 ht
    linarith
  have hy1 : y < 1 := by have : 0 < p.dt / p.tau2 := by positivity
                         linarith
  have hax : |x| = -x := abs_of_neg (by linarith)
  have habs : |y| < |x| := by rw [hax, abs_lt]; constructor <;> linarith
  have hx0 : 0 < |x| := lt_of_le_of_lt (abs_nonneg _) habs
  have h1 : Filter.Tendsto (fun i : ℕ => |x| ^ i) Filter.atTop Filter.atTop :=
    tendsto_pow_atTop_atTop_of_one_lt (by rw [hax]; linarith)
  have h2 : Filter.Tendsto (fun i : ℕ => p.q1 - p.q2 * (|y| / |x|) ^ i) Filter.atTop (nhds (p.q1 - p.q2 * 0)) := by
    refine Filter.Tendsto.sub tendsto_const_nhds (Filter.Tendsto.const_mul _ ?_)
    exact tendsto_pow_atTop_nhds_zero_of_lt_one (by positivity) ((div_lt_one hx0).mpr habs)
  have h3 := h1.atTop_mul_pos (by simpa using hp.q1_pos) h2
  have h4 : Filter.Tendsto (fun i : ℕ => |c| * (|x| ^ i * (p.q1 - p.q2 * (|y| / |x|) ^ i)) - |c / p.l|) Filter.atTop
      Filter.atTop :=
    Filter.tendsto_atTop_add_const_right _ _ (h3.const_mul_atTop (abs_pos.mpr hc))
  refine Filter.tendsto_atTop_mono (fun i => ?_) h4
  rw [const_T hp ha]
  have e : |x| ^ i * (p.q1 - p.q2 * (|y| / |x|) ^ i) = p.q1 * |x| ^ i - p.q2 * |y| ^ i := by
    rw [div_pow]; field_simp
  rw [e]
  have k1 : p.q1 * |x| ^ i - p.q2 * |y| ^ i ≤ |p.q1 * x ^ i + p.q2 * y ^ i| := by
    have := abs_sub_abs_le_abs_sub (p.q1 * x ^ i) (-(p.q2 * y ^ i))
    rw [abs_neg, abs_mul, abs_mul, abs_pow, abs_pow, abs_of_pos hp.q1_pos, abs_of_pos hp.q2_pos, sub_neg_eq_add] at this
    exact this
  have k2 := mul_le_mul_of_nonneg_left k1 (abs_nonneg c)
  have k3 := abs_sub_abs_le_abs_sub (c * (p.q1 * x ^ i + p.q2 * y ^ i)) (c / p.l)
  rw [abs_sub_comm, abs_mul] at k3
  linarith

end TLPar
end TwoLayer
