import Verif.Proofs.TLMath
import Verif.Proofs.IRMath

/-!
# Sensitivity of the responses to forcing and feedback (real numbers only)
-/

set_option linter.unusedSimpArgs false
set_option linter.unusedSectionVars false

namespace TwoLayer

/-! ## linear recurrences with a vanishing input -/

theorem recur_tendsto_zero {x : ℝ} (hx : |x| < 1) {z g : ℕ → ℝ} (hz : ∀ i, z (i + 1) = x * z i + g i)
    (hg : Filter.Tendsto g Filter.atTop (nhds 0)) : Filter.Tendsto z Filter.atTop (nhds 0) := by
  rw [Metric.tendsto_atTop]
  intro ε hε
  have h1 : 0 < 1 - |x| := by linarith
  obtain ⟨N, hN⟩ := Metric.tendsto_atTop.mp hg (ε / 2 * (1 - |x|)) (by positivity)
  have key : ∀ j, |z (N + j)| ≤ |x| ^ j * |z N| + ε / 2 := by
    intro j
    induction j with
    | zero => simp; linarith
    | succ j ih =>
      have hgj := hN (N + j) (by omega)
      rw [Real.dist_eq, sub_zero] at hgj
      rw [← Nat.add_assoc, hz]
      calc |x * z (N + j) + g (N + j)| ≤ |x| * |z (N + j)| + |g (N + j)| := by
            rw [← abs_mul]; exact abs_add_le _ _
        _ ≤ |x| * (|x| ^ j * |z N| + ε / 2) + ε / 2 * (1 - |x|) := by
            have := mul_le_mul_of_nonneg_left ih (abs_nonneg x); linarith
        _ = |x| ^ (j + 1) * |z N| + ε / 2 := by ring
  have hp : Filter.Tendsto (fun j => |x| ^ j * |z N|) Filter.atTop (nhds 0) := by
    have := (tendsto_pow_atTop_nhds_zero_of_lt_one (abs_nonneg x) hx).mul_const |z N|
    simpa using this
  obtain ⟨M, hM⟩ := Metric.tendsto_atTop.mp hp (ε / 2) (by positivity)
  refine ⟨N + M, fun i hi => ?_⟩
  obtain ⟨j, rfl⟩ := Nat.exists_eq_add_of_le (show N ≤ i by omega)
  have h2 := hM j (by omega)
  rw [Real.dist_eq, sub_zero] at h2 ⊢
  have := key j
  have := le_abs_self (|x| ^ j * |z N|)
  linarith

theorem recur_tendsto {x w : ℝ} (hx : |x| < 1) {z F : ℕ → ℝ} {c : ℝ} (hz : ∀ i, z (i + 1) = x * z i + w * (1 - x) * F i)
    (hF : Filter.Tendsto F Filter.atTop (nhds c)) : Filter.Tendsto z Filter.atTop (nhds (w * c)) := by
  have : Filter.Tendsto (fun i => z i - w * c) Filter.atTop (nhds 0) := by
    refine recur_tendsto_zero hx (g := fun i => w * (1 - x) * (F i - c)) (fun i => by rw [hz]; ring) ?_
    have := (hF.sub_const c).const_mul (w * (1 - x))
    simpa using this
  have := this.add_const (w * c)
  simpa using this

namespace TLPar
variable {p : TLPar} {F G : ℕ → ℝ}

theorem eul_tendsto {q τ dt c : ℝ} (hx : |1 - dt / τ| < 1) (hF : Filter.Tendsto F Filter.atTop (nhds c)) :
    Filter.Tendsto (eul q τ dt F) Filter.atTop (nhds (q * c)) :=
  recur_tendsto hx (fun i => by rw [eul]; ring) hF

theorem tendsto (hp : p.Pos) (ha : p.a = 0) (hdt : p.dt < 2 * p.tau1) {c : ℝ}
    (hF : Filter.Tendsto F Filter.atTop (nhds c)) :
    Filter.Tendsto (p.T F) Filter.atTop (nhds (c / p.l)) ∧ Filter.Tendsto (p.TD F) Filter.atTop (nhds (c / p.l)) ∧
    Filter.Tendsto (p.U F) Filter.atTop (nhds 0) := by
  have hr := rate_lt hp hdt
  have h1 := eul_tendsto (q := p.q1) (lt_of_le_of_lt (le_max_left _ _) hr) hF
  have h2 := eul_tendsto (q := p.q2) (lt_of_le_of_lt (le_max_right _ _) hr) hF
  have hT : Filter.Tendsto (p.T F) Filter.atTop (nhds (c / p.l)) := by
    have h := h1.add h2
    have e : p.q1 * c + p.q2 * c = c / p.l := by rw [← add_mul, hp.q_sum]; ring
    rw [e] at h
    exact h.congr fun i => (modes hp ha F i).1.symm
  have hTD : Filter.Tendsto (p.TD F) Filter.atTop (nhds (c / p.l)) := by
    have h := (h1.const_mul p.phi1).add (h2.const_mul p.phi2)
    have e : p.phi1 * (p.q1 * c) + p.phi2 * (p.q2 * c) = c / p.l := by
      rw [← mul_assoc, ← mul_assoc, ← add_mul, hp.phi_q_sum]; ring
    rw [e] at h
    exact h.congr fun i => (modes hp ha F i).2.symm
  refine ⟨hT, hTD, ?_⟩
  rw [← Filter.tendsto_add_atTop_iff_nat 1]
  have h := ((hF.sub (hT.const_mul p.l)).sub ((hT.sub hTD).const_mul ((p.e - 1) * p.h)))
  have e : c - p.l * (c / p.l) - (p.e - 1) * p.h * (c / p.l - c / p.l) = 0 := by
    have := hp.l.ne'; field_simp; ring
  rw [e] at h
  refine h.congr fun i => ?_
  rw [uptake hp.ok F i, ha]; ring

/-- forcings that differ by at most `δ` give temperatures that differ by at most `δ / l` -/
theorem lipschitz (hr : p.Resolved) (ha : p.a = 0) {δ : ℝ} (hδ : 0 ≤ δ) {k : ℕ} (hF : ∀ i < k, |F i - G i| ≤ δ) :
    ∀ i ≤ k, |p.T F i - p.T G i| ≤ δ / p.l ∧ |p.TD F i - p.TD G i| ≤ δ / p.l := by
  intro i hi
  obtain ⟨h1, h2, -⟩ := linear (p := p) ha 1 (-1) F G i
  have hb := bounds hr ha (F := fun j => 1 * F j + -1 * G j) (lo := -δ) (hi := δ) (by linarith) hδ (k := k)
    (fun j hj => by
      have := abs_le.mp (hF j hj)
      constructor <;> linarith) i hi
  rw [h1, h2, neg_div] at hb
  constructor
  · rw [abs_le]; constructor <;> linarith [hb.1.1, hb.1.2]
  · rw [abs_le]; constructor <;> linarith [hb.2.1, hb.2.2]

/-- stronger feedback: `l ≤ l'`, everything else equal, non-negative forcing -/
theorem anti_l {l' : ℝ} (hr : TLPar.Resolved { p with l := l' }) (hll : p.l ≤ l') (ha : 0 ≤ p.a)
    {k : ℕ} (h0 : ∀ i < k, 0 ≤ F i) :
    ∀ i ≤ k, (0 ≤ TLPar.T { p with l := l' } F i ∧ 0 ≤ TLPar.TD { p with l := l' } F i) ∧
      TLPar.T { p with l := l' } F i ≤ p.T F i ∧ TLPar.TD { p with l := l' } F i ≤ p.TD F i := by
  have hC : 0 < p.C := hr.C
  have hD : 0 < p.D := hr.D
  have hdt : 0 < p.dt := hr.dt
  have he : 0 ≤ p.e := hr.e
  have hh : 0 ≤ p.h := hr.h
  have hA : 0 ≤ p.C - p.dt * (l' + p.e * p.h) := by
    have h : p.dt * (l' + p.e * p.h) ≤ p.C := hr.upper
    linarith
  have hB : 0 ≤ p.D - p.dt * p.h := by
    have h : p.dt * p.h ≤ p.D := hr.lower
    linarith
  have heh : 0 ≤ p.dt * (p.e * p.h) := mul_nonneg hdt.le (mul_nonneg he hh)
  have hdh : 0 ≤ p.dt * p.h := mul_nonneg hdt.le hh
  have hdl : 0 ≤ p.dt * (l' - p.l) := mul_nonneg hdt.le (by linarith)
  intro i
  induction i with
  | zero => intro _; simp
  | succ i ih =>
    intro hi
    obtain ⟨⟨z1, z2⟩, t, d⟩ := ih (by omega)
    have f0 := h0 i (by omega)
    have hT := T_step hC.ne' F i
    have hT' := T_step (p := { p with l := l' }) hC.ne' F i
    have hTD := TD_step hD.ne' F i
    have hTD' := TD_step (p := { p with l := l' }) hD.ne' F i
    simp only at hT' hTD'
    generalize TLPar.T { p with l := l' } F i = tg at *
    generalize TLPar.T { p with l := l' } F (i+1) = tg' at *
    generalize TLPar.TD { p with l := l' } F i = dg at *
    generalize TLPar.TD { p with l := l' } F (i+1) = dg' at *
    have sq : tg ^ 2 ≤ p.T F i ^ 2 := by nlinarith
    have hsq : p.a * tg ^ 2 ≤ p.a * p.T F i ^ 2 := mul_le_mul_of_nonneg_left sq ha
    have m1 := mul_le_mul_of_nonneg_left t hA
    have m2 := mul_le_mul_of_nonneg_left d heh
    have m4 := mul_le_mul_of_nonneg_left d hB
    have m5 := mul_le_mul_of_nonneg_left t hdh
    have m6 := mul_le_mul_of_nonneg_left hsq hdt.le
    have m7 := mul_nonneg hdl (z1.trans t)
    have n1 := mul_nonneg hA z1
    have n2 := mul_nonneg heh z2
    have n3 := mul_nonneg hdt.le f0
    have n4 := mul_nonneg hB z2
    have n5 := mul_nonneg hdh z1
    have n6 : 0 ≤ p.dt * (p.a * tg ^ 2) := by positivity
    refine ⟨⟨?_, ?_⟩, ?_, ?_⟩
    · refine le_of_mul_le_mul_left ?_ hC
      rw [hT']; linarith
    · refine le_of_mul_le_mul_left ?_ hD
      rw [hTD']; linarith
    · refine le_of_mul_le_mul_left ?_ hC
      rw [hT, hT']; linarith
    · refine le_of_mul_le_mul_left ?_ hD
      rw [hTD, hTD']; linarith

/-- the forcing delayed by one step -/
def delay (F : ℕ → ℝ) : ℕ → ℝ
  | 0 => 0
  | i + 1 => F i

/-- non-decreasing forcing from a non-negative start -/
theorem rising (hr : p.Resolved) (ha : 0 ≤ p.a) {k : ℕ} (h0 : 0 ≤ F 0) (hF : ∀ i, i + 1 < k → F i ≤ F (i + 1)) :
    ∀ i, i + 1 ≤ k → p.T F i ≤ p.T F (i + 1) ∧ p.TD F i ≤ p.TD F (i + 1) ∧ p.TD F (i + 1) ≤ p.T F i ∧
      0 ≤ p.U F (i + 1) := by
  have hn : ∀ i < k, 0 ≤ F i := by
    intro i
    induction i with
    | zero => intro _; exact h0
    | succ i ih => intro hi; exact (ih (by omega)).trans (hF i hi)
  have hsh := shift (p := p) (F := F) (G := delay F) (k := 1)
    (fun i hi => by obtain rfl : i = 0 := by omega
                    rfl) (fun i => by rw [Nat.add_comm]; rfl)
  have hle := mono_a (p' := p) hr rfl ha le_rfl (F := delay F) (G := F) (k := k)
    (fun i hi => by cases i with
      | zero => exact le_rfl
      | succ i => exact hn i (by omega)) (fun i hi => by cases i with
      | zero => exact h0
      | succ i => exact hF i hi)
  have h1 : ∀ j, j + 1 ≤ k → p.T F j ≤ p.T F (j + 1) ∧ p.TD F j ≤ p.TD F (j + 1) := by
    intro j hj
    have := (hle (j + 1) hj).2
    rw [Nat.add_comm j 1, (hsh j).1, (hsh j).2.1] at this
    rwa [Nat.add_comm 1 j] at this
  have hD := hr.D
  have hB : 0 ≤ p.D - p.dt * p.h := by linarith [hr.lower]
  have key : ∀ j ≤ k, p.TD F j ≤ p.T F j := by
    intro j
    induction j with
    | zero => intro _; simp
    | succ j ih =>
      intro hj
      refine le_trans ?_ (h1 j (by omega)).1
      refine le_of_mul_le_mul_left ?_ hD
      rw [TD_step hD.ne']
      have := mul_le_mul_of_nonneg_left (ih (by omega)) hB
      linarith
  intro i hi
  obtain ⟨a, b⟩ := h1 i hi
  refine ⟨a, b, ?_, ?_⟩
  · refine le_of_mul_le_mul_left ?_ hD
    rw [TD_step hD.ne']
    have := mul_le_mul_of_nonneg_left (key i (by omega)) hB
    linarith
  · rw [U_succ]
    have := hr.C; have := hr.dt
    have x1 : 0 ≤ p.T F (i + 1) - p.T F i := by linarith
    have x2 : 0 ≤ p.TD F (i + 1) - p.TD F i := by linarith
    positivity

/-- larger heat capacities slow the warming under rising forcing -/
theorem anti_cap {C' D' : ℝ} (hr : p.Resolved) (hC : p.C ≤ C') (hD : p.D ≤ D') (ha : 0 ≤ p.a) {k : ℕ} (h0 : 0 ≤ F 0)
    (hF : ∀ i, i + 1 < k → F i ≤ F (i + 1)) :
    ∀ i ≤ k, TLPar.T { p with C := C', D := D' } F i ≤ p.T F i ∧
      TLPar.TD { p with C := C', D := D' } F i ≤ p.TD F i := by
  have hr' : TLPar.Resolved { p with C := C', D := D' } :=
    ⟨lt_of_lt_of_le hr.C hC, lt_of_lt_of_le hr.D hD, hr.l, hr.e, hr.h, hr.dt, le_trans hr.upper hC,
      le_trans hr.lower hD⟩
  have hris := rising hr' ha h0 hF
  have hn : ∀ i < k, 0 ≤ F i := by
    intro i
    induction i with
    | zero => intro _; exact h0
    | succ i ih => intro hi; exact (ih (by omega)).trans (hF i hi)
  have hnn := mono_a (p' := { p with C := C', D := D' }) hr' rfl ha le_rfl hn (G := F) (fun _ _ => le_rfl)
  have hpC := hr.C; have hpD := hr.D; have hdt := hr.dt
  have hA : 0 ≤ p.C - p.dt * (p.l + p.e * p.h) := by linarith [hr.upper]
  have hB : 0 ≤ p.D - p.dt * p.h := by linarith [hr.lower]
  have heh : 0 ≤ p.dt * (p.e * p.h) := mul_nonneg hdt.le (mul_nonneg hr.e hr.h)
  have hdh : 0 ≤ p.dt * p.h := mul_nonneg hdt.le hr.h
  intro i
  induction i with
  | zero => intro _; simp
  | succ i ih =>
    intro hi
    obtain ⟨t, d⟩ := ih (by omega)
    obtain ⟨⟨z1, z2⟩, -⟩ := hnn i (by omega)
    obtain ⟨r1, r2, -⟩ := hris i hi
    have hT := T_step hpC.ne' F i
    have hT' := T_step (p := { p with C := C', D := D' }) (lt_of_lt_of_le hpC hC).ne' F i
    have hTD := TD_step hpD.ne' F i
    have hTD' := TD_step (p := { p with C := C', D := D' }) (lt_of_lt_of_le hpD hD).ne' F i
    simp only at hT' hTD'
    generalize TLPar.T { p with C := C', D := D' } F i = tg at *
    generalize TLPar.T { p with C := C', D := D' } F (i+1) = tg' at *
    generalize TLPar.TD { p with C := C', D := D' } F i = dg at *
    generalize TLPar.TD { p with C := C', D := D' } F (i+1) = dg' at *
    have sq : tg ^ 2 ≤ p.T F i ^ 2 := by nlinarith
    have hsq : p.a * tg ^ 2 ≤ p.a * p.T F i ^ 2 := mul_le_mul_of_nonneg_left sq ha
    have m1 := mul_le_mul_of_nonneg_left t hA
    have m2 := mul_le_mul_of_nonneg_left d heh
    have m4 := mul_le_mul_of_nonneg_left d hB
    have m5 := mul_le_mul_of_nonneg_left t hdh
    have m6 := mul_le_mul_of_nonneg_left hsq hdt.le
    have c1 := mul_le_mul_of_nonneg_right hC (sub_nonneg.mpr r1)
    have c2 := mul_le_mul_of_nonneg_right hD (sub_nonneg.mpr r2)
    constructor
    · refine le_of_mul_le_mul_left ?_ hpC
      rw [hT]; linarith
    · refine le_of_mul_le_mul_left ?_ hpD
      rw [hTD]; linarith

/-- reversing the sign of the forcing and of `a` reverses the sign of every output -/
theorem sign (F : ℕ → ℝ) (i : ℕ) : TLPar.T { p with a := -p.a } (fun j => -F j) i = -p.T F i ∧
    TLPar.TD { p with a := -p.a } (fun j => -F j) i = -p.TD F i ∧
    TLPar.U { p with a := -p.a } (fun j => -F j) i = -p.U F i := by
  have key : ∀ i, TLPar.T { p with a := -p.a } (fun j => -F j) i = -p.T F i ∧
      TLPar.TD { p with a := -p.a } (fun j => -F j) i = -p.TD F i := by
    intro i
    induction i with
    | zero => simp
    | succ i ih =>
      obtain ⟨a, b⟩ := ih
      rw [T_succ, TD_succ, T_succ, TD_succ, a, b]
      constructor <;> ring
  refine ⟨(key i).1, (key i).2, ?_⟩
  cases i with
  | zero => simp
  | succ i =>
    rw [U_succ, U_succ, (key i).1, (key i).2, (key (i + 1)).1, (key (i + 1)).2]; ring

end TLPar

/-! ## boxes -/
section
variable {q d dt : ℝ} {F G : ℕ → ℝ}

theorem boxSol_tendsto (hd : 0 < d) (hdt : 0 < dt) {c : ℝ} (hF : Filter.Tendsto F Filter.atTop (nhds c)) :
    Filter.Tendsto (boxSol q d dt F) Filter.atTop (nhds (q * c)) := by
  refine recur_tendsto (x := Real.exp (-(dt / d))) ?_ (fun i => by rw [boxSol_succ]; ring) hF
  rw [abs_of_pos (Real.exp_pos _), Real.exp_lt_one_iff]
  have : 0 < dt / d := by positivity
  linarith

theorem boxSol_lipschitz (hq : 0 ≤ q) (hd : 0 < d) (hdt : 0 ≤ dt) {δ : ℝ} (hδ : 0 ≤ δ) {k : ℕ}
    (hF : ∀ i < k, |F i - G i| ≤ δ) : ∀ i ≤ k, |boxSol q d dt F i - boxSol q d dt G i| ≤ q * δ := by
  intro i hi
  have h1 := boxSol_linear (q := q) (d := d) (dt := dt) 1 (-1) F G i
  have hb := boxSol_bounds hq hd hdt (F := fun j => 1 * F j + -1 * G j) (lo := -δ) (hi := δ) (by linarith) hδ (k := k)
    (fun j hj => by
      have := abs_le.mp (hF j hj)
      constructor <;> linarith) i hi
  rw [h1] at hb
  rw [abs_le]; constructor <;> linarith [hb.1, hb.2]

theorem boxSol_scale (c : ℝ) (i : ℕ) : boxSol (c * q) d dt F i = c * boxSol q d dt F i := by
  induction i with
  | zero => simp [boxSol]
  | succ i ih => rw [boxSol_succ, boxSol_succ, ih]; ring

/-- rising forcing: the box rises, and stays below the value it is relaxing to -/
theorem boxSol_rising (hq : 0 ≤ q) (hd : 0 < d) (hdt : 0 ≤ dt) {k : ℕ} (h0 : 0 ≤ F 0)
    (hF : ∀ i, i + 1 < k → F i ≤ F (i + 1)) : ∀ i, i + 1 ≤ k → boxSol q d dt F i ≤ boxSol q d dt F (i + 1) ∧
      boxSol q d dt F (i + 1) ≤ q * F i := by
  have he := exp_le_one' hdt hd
  have hp := Real.exp_pos (-(dt / d))
  have hub : ∀ i, i + 1 ≤ k → boxSol q d dt F i ≤ q * F i := by
    intro i
    induction i with
    | zero => intro _; rw [boxSol]; positivity
    | succ i ih =>
      intro hi
      have := ih (by omega)
      rw [boxSol_succ]
      have h2 := mul_le_mul_of_nonneg_left (hF i (by omega)) hq
      have : (boxSol q d dt F i - q * F i) * Real.exp (-(dt / d)) ≤ 0 :=
        mul_nonpos_of_nonpos_of_nonneg (by linarith) hp.le
      linarith
  intro i hi
  have := hub i hi
  rw [boxSol_succ]
  constructor
  · nlinarith
  · have : (boxSol q d dt F i - q * F i) * Real.exp (-(dt / d)) ≤ 0 :=
      mul_nonpos_of_nonpos_of_nonneg (by linarith) hp.le
    linarith
end
end TwoLayer
