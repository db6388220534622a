import Verif.Proofs.Rounding
import Verif.Proofs.Exact

/-! # Rounding errors of a two-layer run -/

set_option linter.unusedSimpArgs false
set_option linter.unusedSectionVars false

namespace TwoLayer

namespace TLPar
variable (r : Rounding) (p : TLPar)

/-- the rounded upper-layer update -/
noncomputable def fu (F T TD : ℝ) : ℝ :=
  r.fl (T + r.fl (p.dt * r.fl (r.fl (r.fl (F - r.fl (r.fl (p.l - r.fl (p.a * T)) * T)) -
    r.fl (r.fl (p.e * p.h) * r.fl (T - TD))) / p.C)))
/-- the rounded lower-layer update -/
noncomputable def fd (T TD : ℝ) : ℝ := r.fl (TD + r.fl (p.dt * r.fl (r.fl (p.h * r.fl (T - TD)) / p.D)))
/-- the rounded heat uptake -/
noncomputable def fr (T TD T' TD' : ℝ) : ℝ :=
  r.fl (r.fl (r.fl (p.C * r.fl (T' - T)) / p.dt) + r.fl (r.fl (p.D * r.fl (TD' - TD)) / p.dt))

/-- the rounded run -/
noncomputable def fsol (F : ℕ → ℝ) : ℕ → ℝ × ℝ × ℝ
  | 0 => (0, 0, 0)
  | i + 1 =>
    let s := fsol F i
    let T' := p.fu r (F i) s.1 s.2.1
    let TD' := p.fd r s.1 s.2.1
    (T', TD', p.fr r s.1 s.2.1 T' TD')

variable {r p} {u μ Ω K : ℝ}

theorem fu_err (hr : r.Accurate u μ Ω) (hu : 0 ≤ u) (hu1 : u ≤ 1 / 100) (hp : p.Pos) (hres : p.Resolved) (ha : p.a = 0)
    (hin : p.InRange K μ Ω) (hK : 0 ≤ K) {F T TD : ℝ} (hF : |F| ≤ p.l * K) (hT : |T| ≤ 2 * K) (hTD : |TD| ≤ 2 * K) :
    |p.fu r F T TD - (T + p.dt * ((F - p.l * T - p.e * p.h * (T - TD)) / p.C))| ≤ 48 * u * K := by
  have hC := hp.C; have hl := hp.l; have he := hp.e; have hh := hp.h; have hdt := hp.dt
  have heh : 0 < p.e * p.h := mul_pos he hh
  simp only [TLPar.InRange, List.forall_mem_cons, List.not_mem_nil, IsEmpty.forall_iff, forall_const, and_true] at hin
  obtain ⟨⟨m1, o1⟩, ⟨m2, o2⟩, ⟨m3, o3⟩, ⟨m4, o4⟩, ⟨m5, o5⟩, ⟨m6, o6⟩, ⟨m7, o7⟩, -, -, -, -, -, -, -, ⟨m15, o15⟩⟩ := hin
  have p2 : ∀ {k : ℕ} {B : ℝ}, k ≤ 7 → 0 ≤ B → 2 * B ≤ Ω → (1 + u) ^ k * B ≤ Ω := fun hk hB hΩ =>
    (mul_le_mul_of_nonneg_right (pow_le_two hu hu1 hk) hB).trans hΩ
  have n1 : 0 ≤ p.l * K := by positivity
  have n2 : 0 ≤ p.e * p.h * K := by positivity
  -- λ
  have a1 : Ap u 1 p.l p.l (r.fl p.l) := by
    have h0 : Ap u 0 p.l p.l p.l := Ap.exact (le_of_eq (abs_of_pos hl))
    exact h0.round hr hu m1 (p2 (by norm_num) hl.le (by linarith))
  have xT : Ap u 0 T (2 * K) T := Ap.exact hT
  have xTD : Ap u 0 TD (2 * K) TD := Ap.exact hTD
  have xF : Ap u 0 F (p.l * K) F := Ap.exact hF
  have a2 : Ap u 2 (p.l * T) (p.l * (2 * K)) (r.fl (r.fl p.l * T)) :=
    (a1.mul hu xT).round hr hu (by linarith) (p2 (by norm_num) (by positivity) (by linarith))
  have a3 : Ap u 3 (F - p.l * T) (p.l * K + p.l * (2 * K)) (r.fl (F - r.fl (r.fl p.l * T))) :=
    ((xF.mono hu (by norm_num) le_rfl).sub a2).round hr hu (by linarith) (p2 (by norm_num) (by positivity) (by linarith))
  have b1 : Ap u 1 (p.e * p.h) (p.e * p.h) (r.fl (p.e * p.h)) := by
    have h0 : Ap u 0 (p.e * p.h) (p.e * p.h) (p.e * p.h) := Ap.exact (le_of_eq (abs_of_pos heh))
    exact h0.round hr hu m3 (p2 (by norm_num) heh.le (by linarith))
  have b2 : Ap u 1 (T - TD) (2 * K + 2 * K) (r.fl (T - TD)) :=
    (xT.sub xTD).round hr hu (by linarith) (p2 (by norm_num) (by positivity) (by linarith))
  have b3 : Ap u 3 (p.e * p.h * (T - TD)) (p.e * p.h * (2 * K + 2 * K)) (r.fl (r.fl (p.e * p.h) * r.fl (T - TD))) :=
    (b1.mul hu b2).round hr hu (by linarith) (p2 (by norm_num) (by positivity) (by linarith))
  set H := p.l * K + p.l * (2 * K) + p.e * p.h * (2 * K + 2 * K) with hH
  have hH' : H = 3 * (p.l * K) + 4 * (p.e * p.h * K) := by rw [hH]; ring
  have hH0 : 0 ≤ H := by rw [hH']; positivity
  have a4 := (a3.sub b3).round hr hu (by rw [← hH]; linarith) (p2 (by norm_num) (by positivity) (by rw [← hH]; linarith))
  rw [← hH] at a4
  have s1 : H / p.C = 3 * (p.l * K / p.C) + 4 * (p.e * p.h * K / p.C) := by rw [hH']; ring
  have s2 : (p.l + p.e * p.h) * K / p.C = p.l * K / p.C + p.e * p.h * K / p.C := by ring
  have t1 : 0 ≤ p.l * K / p.C := by positivity
  have t2 : 0 ≤ p.e * p.h * K / p.C := by positivity
  have a5 := (a4.div hC).round hr hu (by rw [s1]; linarith) (p2 (by norm_num) (by positivity) (by rw [s1]; linarith))
  have s3 : p.dt * (H / p.C) = 3 * (p.dt * (p.l * K) / p.C) + 4 * (p.dt * (p.e * p.h * K) / p.C) := by rw [s1]; ring
  have t3 : 0 ≤ p.dt * (p.l * K) / p.C := by positivity
  have t4 : 0 ≤ p.dt * (p.e * p.h * K) / p.C := by positivity
  have s4 : p.dt * (p.l * K) / p.C + p.dt * (p.e * p.h * K) / p.C ≤ K := by
    rw [← add_div, div_le_iff₀ hC]
    calc p.dt * (p.l * K) + p.dt * (p.e * p.h * K) = p.dt * (p.l + p.e * p.h) * K := by ring
      _ ≤ p.C * K := mul_le_mul_of_nonneg_right hres.upper hK
      _ = _ := by ring
  have s5 : p.dt * (H / p.C) ≤ 4 * K := by rw [s3]; linarith
  have a6 := (a5.smul hdt.le).round hr hu (by rw [s3]; linarith) (p2 (by norm_num) (by positivity) (by linarith))
  have a7 := ((xT.mono hu (by norm_num : 0 ≤ 6) le_rfl).add a6).round hr hu (by rw [s3]; linarith)
    (p2 (by norm_num) (by positivity) (by linarith))
  have hfu : p.fu r F T TD = r.fl (T + r.fl (p.dt * r.fl (r.fl (r.fl (F - r.fl (r.fl p.l * T)) -
    r.fl (r.fl (p.e * p.h) * r.fl (T - TD))) / p.C))) := by
    rw [fu, ha, zero_mul, hr.zero, sub_zero]
  rw [hfu]
  calc _ ≤ _ := a7.2
    _ ≤ 8 * u * (2 * K + 4 * K) := by
        have := gamma7 hu hu1
        gcongr
    _ = _ := by ring

theorem fd_err (hr : r.Accurate u μ Ω) (hu : 0 ≤ u) (hu1 : u ≤ 1 / 100) (hp : p.Pos) (hres : p.Resolved)
    (hin : p.InRange K μ Ω) (hK : 0 ≤ K) {T TD : ℝ} (hT : |T| ≤ 2 * K) (hTD : |TD| ≤ 2 * K) :
    |p.fd r T TD - (TD + p.dt * (p.h * (T - TD) / p.D))| ≤ 48 * u * K := by
  have hD := hp.D; have hh := hp.h; have hdt := hp.dt
  simp only [TLPar.InRange, List.forall_mem_cons, List.not_mem_nil, IsEmpty.forall_iff, forall_const, and_true] at hin
  obtain ⟨-, -, -, -, ⟨m5, o5⟩, -, -, ⟨m8, o8⟩, ⟨m9, o9⟩, ⟨m10, o10⟩, -⟩ := hin
  have p2 : ∀ {k : ℕ} {B : ℝ}, k ≤ 7 → 0 ≤ B → 2 * B ≤ Ω → (1 + u) ^ k * B ≤ Ω := fun hk hB hΩ =>
    (mul_le_mul_of_nonneg_right (pow_le_two hu hu1 hk) hB).trans hΩ
  have n1 : 0 ≤ p.h * K := by positivity
  have xT : Ap u 0 T (2 * K) T := Ap.exact hT
  have xTD : Ap u 0 TD (2 * K) TD := Ap.exact hTD
  have b2 : Ap u 1 (T - TD) (2 * K + 2 * K) (r.fl (T - TD)) :=
    (xT.sub xTD).round hr hu (by linarith) (p2 (by norm_num) (by positivity) (by linarith))
  have b3 := (b2.smul hh.le).round hr hu (by linarith) (p2 (by norm_num) (by positivity) (by linarith))
  have s1 : p.h * (2 * K + 2 * K) / p.D = 4 * (p.h * K / p.D) := by ring
  have t1 : 0 ≤ p.h * K / p.D := by positivity
  have b4 := (b3.div hD).round hr hu (by rw [s1]; linarith) (p2 (by norm_num) (by positivity) (by rw [s1]; linarith))
  have s3 : p.dt * (p.h * (2 * K + 2 * K) / p.D) = 4 * (p.dt * (p.h * K) / p.D) := by ring
  have t3 : 0 ≤ p.dt * (p.h * K) / p.D := by positivity
  have s4 : p.dt * (p.h * K) / p.D ≤ K := by
    rw [div_le_iff₀ hD]
    calc p.dt * (p.h * K) = p.dt * p.h * K := by ring
      _ ≤ p.D * K := mul_le_mul_of_nonneg_right hres.lower hK
      _ = _ := by ring
  have b5 := (b4.smul hdt.le).round hr hu (by rw [s3]; linarith) (p2 (by norm_num) (by positivity) (by rw [s3]; linarith))
  have b6 := ((xTD.mono hu (by norm_num : 0 ≤ 4) le_rfl).add b5).round hr hu (by rw [s3]; linarith)
    (p2 (by norm_num) (by positivity) (by rw [s3]; linarith))
  have b7 := b6.mono hu (by norm_num : 4 + 1 ≤ 7) (le_refl _)
  calc _ ≤ _ := b7.2
    _ ≤ 8 * u * (2 * K + 4 * K) := by
        have := gamma7 hu hu1
        have : p.dt * (p.h * (2 * K + 2 * K) / p.D) ≤ 4 * K := by rw [s3]; linarith
        gcongr
    _ = _ := by ring

theorem fr_err (hr : r.Accurate u μ Ω) (hu : 0 ≤ u) (hu1 : u ≤ 1 / 100) (hp : p.Pos)
    (hin : p.InRange K μ Ω) (hK : 0 ≤ K) {T TD T' TD' : ℝ} (hT : |T| ≤ 2 * K) (hTD : |TD| ≤ 2 * K) (hT' : |T'| ≤ 2 * K)
    (hTD' : |TD'| ≤ 2 * K) :
    |p.fr r T TD T' TD' - (p.C * (T' - T) / p.dt + p.D * (TD' - TD) / p.dt)| ≤ 32 * u * (K * (p.C + p.D) / p.dt) := by
  have hC := hp.C; have hD := hp.D; have hdt := hp.dt
  simp only [TLPar.InRange, List.forall_mem_cons, List.not_mem_nil, IsEmpty.forall_iff, forall_const, and_true] at hin
  obtain ⟨-, -, -, -, ⟨m5, o5⟩, -, -, -, -, -, ⟨m1, o1⟩, ⟨m2, o2⟩, ⟨m3, o3⟩, ⟨m4, o4⟩, -⟩ := hin
  have p2 : ∀ {k : ℕ} {B : ℝ}, k ≤ 7 → 0 ≤ B → 2 * B ≤ Ω → (1 + u) ^ k * B ≤ Ω := fun hk hB hΩ =>
    (mul_le_mul_of_nonneg_right (pow_le_two hu hu1 hk) hB).trans hΩ
  have xT : Ap u 0 T (2 * K) T := Ap.exact hT
  have xTD : Ap u 0 TD (2 * K) TD := Ap.exact hTD
  have xT' : Ap u 0 T' (2 * K) T' := Ap.exact hT'
  have xTD' : Ap u 0 TD' (2 * K) TD' := Ap.exact hTD'
  have n1 : 0 ≤ p.C * K := by positivity
  have n2 : 0 ≤ p.D * K := by positivity
  have n3 : 0 ≤ p.C * K / p.dt := by positivity
  have n4 : 0 ≤ p.D * K / p.dt := by positivity
  have a1 := (xT'.sub xT).round hr hu (by linarith) (p2 (by norm_num) (by positivity) (by linarith))
  have a2 := (a1.smul hC.le).round hr hu (by linarith) (p2 (by norm_num) (by positivity) (by linarith))
  have s1 : p.C * (2 * K + 2 * K) / p.dt = 4 * (p.C * K / p.dt) := by ring
  have a3 := (a2.div hdt).round hr hu (by rw [s1]; linarith) (p2 (by norm_num) (by positivity) (by rw [s1]; linarith))
  have b1 := (xTD'.sub xTD).round hr hu (by linarith) (p2 (by norm_num) (by positivity) (by linarith))
  have b2 := (b1.smul hD.le).round hr hu (by linarith) (p2 (by norm_num) (by positivity) (by linarith))
  have s2 : p.D * (2 * K + 2 * K) / p.dt = 4 * (p.D * K / p.dt) := by ring
  have b3 := (b2.div hdt).round hr hu (by rw [s2]; linarith) (p2 (by norm_num) (by positivity) (by rw [s2]; linarith))
  have c := (a3.add b3).round hr hu (by rw [s1, s2]; linarith) (p2 (by norm_num) (by positivity) (by rw [s1, s2]; linarith))
  have c' := c.mono hu (by norm_num : 0 + 1 + 1 + 1 + 1 ≤ 7) (le_refl _)
  calc _ ≤ _ := c'.2
    _ ≤ 8 * u * (p.C * (2 * K + 2 * K) / p.dt + p.D * (2 * K + 2 * K) / p.dt) := by
        have := gamma7 hu hu1
        gcongr
    _ = _ := by ring

/-- the rounded run stays close to the exact one -/
theorem fsol_err (hr : r.Accurate u μ Ω) (hu : 0 ≤ u) (hu1 : u ≤ 1 / 100) (hp : p.Pos) (hres : p.Resolved) (ha : p.a = 0)
    (hin : p.InRange K μ Ω) (hK : 0 ≤ K) (hκ : 48 * u * p.memory ≤ 1) {F : ℕ → ℝ} {k : ℕ} (hF : ∀ i < k, |F i| ≤ p.l * K) :
    ∀ i ≤ k, |(p.fsol r F i).1 - p.T F i| ≤ 48 * u * K * ((p.C + p.e * p.D) / (p.dt * p.l)) ∧
      |(p.fsol r F i).2.1 - p.TD F i| ≤ 48 * u * K * p.memory := by
  have hC := hp.C; have hD := hp.D; have hl := hp.l; have he := hp.e; have hh := hp.h; have hdt := hp.dt
  set δ := 48 * u * K with hδ
  have hδ0 : 0 ≤ δ := by positivity
  set Eu := δ * ((p.C + p.e * p.D) / (p.dt * p.l)) with hEu
  set El := δ * p.memory with hEl
  have hEuEl : El = Eu + δ * (p.D / (p.dt * p.h)) := by rw [hEl, hEu, memory]; ring
  have hEu0 : 0 ≤ Eu := by positivity
  have hle : Eu ≤ El := by
    rw [hEuEl]
    have : 0 ≤ δ * (p.D / (p.dt * p.h)) := by positivity
    linarith
  have hElK : El ≤ K := by
    have : El = (48 * u * p.memory) * K := by rw [hEl, hδ]; ring
    rw [this]
    exact mul_le_of_le_one_left hK hκ
  have hbd : ∀ i ≤ k, |p.T F i| ≤ K ∧ |p.TD F i| ≤ K := by
    intro i hi
    have h0 : 0 ≤ p.l * K := by positivity
    have := bounds hres ha (lo := -(p.l * K)) (hi := p.l * K) (by linarith) h0
      (fun j hj => abs_le.mp (hF j hj)) i hi
    rw [neg_div, mul_div_cancel_left₀ _ hl.ne'] at this
    exact ⟨abs_le.mpr this.1, abs_le.mpr this.2⟩
  intro i
  induction i with
  | zero => intro _; simp [fsol, TLPar.T, TLPar.TD, TLPar.sol]; exact ⟨hEu0, hEu0.trans hle⟩
  | succ i ih =>
    intro hi
    obtain ⟨h1, h2⟩ := ih (by omega)
    obtain ⟨b1, b2⟩ := hbd i (by omega)
    set T := (p.fsol r F i).1 with hTdef
    set TD := (p.fsol r F i).2.1 with hTDdef
    have bT : |T| ≤ 2 * K := by
      calc |T| = |(T - p.T F i) + p.T F i| := by congr 1; ring
        _ ≤ |T - p.T F i| + |p.T F i| := abs_add_le _ _
        _ ≤ 2 * K := by linarith
    have bTD : |TD| ≤ 2 * K := by
      calc |TD| = |(TD - p.TD F i) + p.TD F i| := by congr 1; ring
        _ ≤ |TD - p.TD F i| + |p.TD F i| := abs_add_le _ _
        _ ≤ 2 * K := by linarith
    have e1 := fu_err hr hu hu1 hp hres ha hin hK (hF i (by omega)) bT bTD
    have e2 := fd_err hr hu hu1 hp hres hin hK bT bTD
    have c1 : (p.fsol r F (i + 1)).1 = p.fu r (F i) T TD := rfl
    have c2 : (p.fsol r F (i + 1)).2.1 = p.fd r T TD := rfl
    rw [c1, c2, TLPar.T_succ, TLPar.TD_succ, ha]
    rw [← hδ] at e1 e2
    constructor
    · set α := 1 - p.dt * (p.l + p.e * p.h) / p.C with hα
      set β := p.dt * (p.e * p.h) / p.C with hβ
      have hα0 : 0 ≤ α := by
        rw [hα, sub_nonneg, div_le_one hC]; exact hres.upper
      have hβ0 : 0 ≤ β := by positivity
      have key : p.fu r (F i) T TD - (p.T F i + p.dt * ((F i - (p.l - 0 * p.T F i) * p.T F i -
          p.e * p.h * (p.T F i - p.TD F i)) / p.C)) =
          (p.fu r (F i) T TD - (T + p.dt * ((F i - p.l * T - p.e * p.h * (T - TD)) / p.C))) +
          (α * (T - p.T F i) + β * (TD - p.TD F i)) := by
        rw [hα, hβ]; field_simp; ring
      rw [key]
      calc _ ≤ δ + (α * Eu + β * El) := by
            refine (abs_add_le _ _).trans (add_le_add e1 ((abs_add_le _ _).trans ?_))
            rw [abs_mul, abs_mul, abs_of_nonneg hα0, abs_of_nonneg hβ0]
            gcongr
        _ = Eu := by
            rw [hEuEl, hα, hβ, hEu]; field_simp; ring
    · set α := 1 - p.dt * p.h / p.D with hα
      set β := p.dt * p.h / p.D with hβ
      have hα0 : 0 ≤ α := by
        rw [hα, sub_nonneg, div_le_one hD]; exact hres.lower
      have hβ0 : 0 ≤ β := by positivity
      have key : p.fd r T TD - (p.TD F i + p.dt * (p.h * (p.T F i - p.TD F i) / p.D)) =
          (p.fd r T TD - (TD + p.dt * (p.h * (T - TD) / p.D))) +
          (α * (TD - p.TD F i) + β * (T - p.T F i)) := by
        rw [hα, hβ]; field_simp; ring
      rw [key]
      calc _ ≤ δ + (α * El + β * Eu) := by
            refine (abs_add_le _ _).trans (add_le_add e2 ((abs_add_le _ _).trans ?_))
            rw [abs_mul, abs_mul, abs_of_nonneg hα0, abs_of_nonneg hβ0]
            gcongr
        _ = El := by
            rw [hEuEl, hα, hβ]; field_simp; ring

/-- heat uptake of the rounded run -/
theorem fsol_uptake (hr : r.Accurate u μ Ω) (hu : 0 ≤ u) (hu1 : u ≤ 1 / 100) (hp : p.Pos) (hres : p.Resolved) (ha : p.a = 0)
    (hin : p.InRange K μ Ω) (hK : 0 ≤ K) (hκ : 48 * u * p.memory ≤ 1) {F : ℕ → ℝ} {k : ℕ} (hF : ∀ i < k, |F i| ≤ p.l * K) :
    ∀ i ≤ k, |(p.fsol r F i).2.2 - p.U F i| ≤ u * (32 + 96 * p.memory) * (K * (p.C + p.D) / p.dt) := by
  have hC := hp.C; have hD := hp.D; have hl := hp.l; have he := hp.e; have hh := hp.h; have hdt := hp.dt
  have hm0 : 0 ≤ p.memory := by unfold memory; positivity
  have hEl : ∀ i ≤ k, |(p.fsol r F i).1 - p.T F i| ≤ 48 * u * K * p.memory ∧
      |(p.fsol r F i).2.1 - p.TD F i| ≤ 48 * u * K * p.memory := by
    intro i hi
    obtain ⟨h1, h2⟩ := fsol_err hr hu hu1 hp hres ha hin hK hκ hF i hi
    refine ⟨h1.trans ?_, h2⟩
    have : (p.C + p.e * p.D) / (p.dt * p.l) ≤ p.memory := by
      unfold memory
      have : 0 ≤ p.D / (p.dt * p.h) := by positivity
      linarith
    gcongr
  have hElK : 48 * u * K * p.memory ≤ K := by
    have : 48 * u * K * p.memory = (48 * u * p.memory) * K := by ring
    rw [this]; exact mul_le_of_le_one_left hK hκ
  have hbd : ∀ i ≤ k, |(p.fsol r F i).1| ≤ 2 * K ∧ |(p.fsol r F i).2.1| ≤ 2 * K := by
    intro i hi
    have h0 : 0 ≤ p.l * K := by positivity
    have hb := bounds hres ha (lo := -(p.l * K)) (hi := p.l * K) (by linarith) h0
      (fun j hj => abs_le.mp (hF j hj)) i hi
    rw [neg_div, mul_div_cancel_left₀ _ hl.ne'] at hb
    obtain ⟨h1, h2⟩ := hEl i hi
    have b1 : |p.T F i| ≤ K := abs_le.mpr hb.1
    have b2 : |p.TD F i| ≤ K := abs_le.mpr hb.2
    constructor
    · calc |(p.fsol r F i).1| = |((p.fsol r F i).1 - p.T F i) + p.T F i| := by congr 1; ring
        _ ≤ |(p.fsol r F i).1 - p.T F i| + |p.T F i| := abs_add_le _ _
        _ ≤ 2 * K := by linarith
    · calc |(p.fsol r F i).2.1| = |((p.fsol r F i).2.1 - p.TD F i) + p.TD F i| := by congr 1; ring
        _ ≤ |(p.fsol r F i).2.1 - p.TD F i| + |p.TD F i| := abs_add_le _ _
        _ ≤ 2 * K := by linarith
  intro i hi
  cases i with
  | zero =>
    simp only [fsol, TLPar.U_zero, sub_zero, abs_zero]
    positivity
  | succ i =>
    obtain ⟨h1, h2⟩ := hEl i (by omega)
    obtain ⟨h3, h4⟩ := hEl (i + 1) hi
    obtain ⟨b1, b2⟩ := hbd i (by omega)
    obtain ⟨b3, b4⟩ := hbd (i + 1) hi
    have e := fr_err hr hu hu1 hp hin hK b1 b2 b3 b4
    have c : (p.fsol r F (i + 1)).2.2 = p.fr r (p.fsol r F i).1 (p.fsol r F i).2.1 (p.fsol r F (i + 1)).1
      (p.fsol r F (i + 1)).2.1 := rfl
    rw [c, TLPar.U_succ]
    set T := (p.fsol r F i).1
    set TD := (p.fsol r F i).2.1
    set T' := (p.fsol r F (i + 1)).1
    set TD' := (p.fsol r F (i + 1)).2.1
    set E := 48 * u * K * p.memory
    have key : p.fr r T TD T' TD' - (p.C * (p.T F (i + 1) - p.T F i) / p.dt + p.D * (p.TD F (i + 1) - p.TD F i) / p.dt) =
        (p.fr r T TD T' TD' - (p.C * (T' - T) / p.dt + p.D * (TD' - TD) / p.dt)) +
        (p.C / p.dt * ((T' - p.T F (i + 1)) - (T - p.T F i)) + p.D / p.dt * ((TD' - p.TD F (i + 1)) - (TD - p.TD F i))) := by
      ring
    rw [key]
    calc _ ≤ 32 * u * (K * (p.C + p.D) / p.dt) + (p.C / p.dt * (E + E) + p.D / p.dt * (E + E)) := by
          refine (abs_add_le _ _).trans (add_le_add e ((abs_add_le _ _).trans ?_))
          rw [abs_mul, abs_mul, abs_of_nonneg (by positivity : 0 ≤ p.C / p.dt), abs_of_nonneg (by positivity : 0 ≤ p.D / p.dt)]
          have g1 : |(T' - p.T F (i + 1)) - (T - p.T F i)| ≤ E + E := (abs_sub _ _).trans (add_le_add h3 h1)
          have g2 : |(TD' - p.TD F (i + 1)) - (TD - p.TD F i)| ≤ E + E := (abs_sub _ _).trans (add_le_add h4 h2)
          gcongr
      _ = _ := by simp only [E]; ring

end TLPar

/-! ## The model at rounded numbers -/

section
variable {N : Type} [Fintype N] [DecidableEq N] {r : Rounding} {R : Registry N (FR r)}

theorem IsFNum.magIn {q : Qty N (FR r)} {u : Units N} {x : ℝ} (h : IsFNum R q u x) : q.magIn R u = FR.fin x := by
  unfold IsFNum Qty.toUnit at h
  split at h
  · injection h with h; exact congrArg Qty.mag h
  · cases h

theorem fseries_length (n : ℕ) (f : ℕ → ℝ) : (fseries n f : List (FR r)).length = n := by simp [fseries]

theorem fseries_getElem? (n : ℕ) (f : ℕ → ℝ) (i : ℕ) (hi : i < n) :
    (fseries n f : List (FR r))[i]? = some (FR.fin (f i)) := by
  simp [fseries, List.getElem?_map, List.getElem?_range hi]

theorem eq_fseries {n : ℕ} {f : ℕ → ℝ} {l : List (FR r)} (hl : l.length = n)
    (h : ∀ i < n, l[i]? = some (FR.fin (f i))) : l = fseries n f := by
  apply List.ext_getElem?
  intro i
  by_cases hi : i < n
  · rw [h i hi, fseries_getElem? n f i hi]
  · rw [List.getElem?_eq_none (by omega), List.getElem?_eq_none (by rw [fseries_length]; omega)]

theorem IsFForcing.good {d : DArg N (FR r)} {n : ℕ} {F : ℕ → ℝ} (h : IsFForcing R d n F) (hn : n ≠ 0) :
    ∃ vals u, d = .qty ⟨1, vals⟩ u ∧ vals.length = n ∧ GoodDrivers R d vals u ∧ modelF R vals u = fseries n F := by
  obtain ⟨vals, u, rfl, hlen, hv⟩ := h
  refine ⟨vals, u, rfl, hlen, ⟨rfl, ?_, ?_⟩, ?_⟩
  · have h0 := (hv 0 (by omega)).1
    unfold IsFNum Qty.toUnit at h0
    split at h0
    · assumption
    · cases h0
  · rw [List.any_eq_false]
    intro x hx
    obtain ⟨i, hi, rfl⟩ := List.getElem_of_mem hx
    rw [(hv i hi).2]; simp
  · apply eq_fseries (by simp [hlen])
    intro i hi
    rw [← (hv i (by omega)).1.magIn]
    simp [modelF, magsIn, List.getElem?_eq_getElem (show i < vals.length by omega)]

theorem TLM.fseq {m : TLM N (FR r)} {p : TLPar} (hz : r.fl 0 = 0) (hc : m.Coherent R) (hp : m.FPhys R p) (hok : p.Ok) (n : ℕ)
    (F : ℕ → ℝ) : ∀ i < n, m.eng.seq (fseries n F) i =
      .ok (FR.fin (p.fsol r F i).1, FR.fin (p.fsol r F i).2.1, FR.fin (p.fsol r F i).2.2) := by
  have e1 : m.core.deltaTMag = FR.fin p.dt := by rw [hc.core.dtMag]; exact hp.dt.magIn
  have e2 : m.lambda0Mag = FR.fin p.l := by rw [hc.lambda0Mag]; exact hp.lambda0.magIn
  have e3 : m.aMag = FR.fin p.a := by rw [hc.aMag]; exact hp.a.magIn
  have e4 : m.efficacyMag = FR.fin p.e := by rw [hc.efficacyMag]; exact hp.efficacy.magIn
  have e5 : m.etaMag = FR.fin p.h := by rw [hc.etaMag]; exact hp.eta.magIn
  have e6 : m.hcuMag = FR.fin p.C := by rw [hc.hcuMag]; exact hp.C.magIn
  have e7 : m.hclMag = FR.fin p.D := by rw [hc.hclMag]; exact hp.D.magIn
  intro i
  induction i with
  | zero => intro _; simp [Eng.seq, TLPar.fsol, hz]
  | succ i ih =>
    intro hi
    simp only [Eng.seq, ih (by omega), getAt, fseries_getElem? n F i (by omega)]
    simp only [TLM.eng, TLM.calcNextTempUpper,
      TLM.calcNextTempLower, TLM.calcNextRndt, e1, e2, e3, e4, e5, e6, e7, FR.fin_sub, FR.fin_mul, FR.fin_add,
      FR.fin_div hok.C, FR.fin_div hok.D, FR.fin_div hok.dt]
    rfl

theorem TLM.fproduces {m : TLM N (FR r)} {p : TLPar} (hz : r.fl 0 = 0) (hc : m.Coherent R) (hp : m.FPhys R p) (hok : p.Ok)
    {d : DArg N (FR r)} {n : ℕ} (hn : n ≠ 0) {F : ℕ → ℝ} (hd : IsFForcing R d n F) :
    TLM.FProduces R m d n (fun i => (p.fsol r F i).1) (fun i => (p.fsol r F i).2.1) (fun i => (p.fsol r F i).2.2) := by
  obtain ⟨vals, u, rfl, hlen, hg, hmF⟩ := hd.good hn
  obtain ⟨m', hm'⟩ := TLM.simulate_succeeds R m hg
  refine ⟨m', hm', ?_⟩
  obtain ⟨vals', u', v, hg', rfl, hI⟩ := TLM.simulate_ok hm'
  obtain ⟨h1, -⟩ := hg'
  cases h1
  rw [hmF] at hI
  have key : ∀ i < n, v.A[i]? = some (FR.fin (p.fsol r F i).1) ∧ v.B[i]? = some (FR.fin (p.fsol r F i).2.1) ∧
      v.C[i]? = some (FR.fin (p.fsol r F i).2.2) := by
    intro i hi
    obtain ⟨a, b, c, h1, h2, h3, h4⟩ := hI.done i (by omega)
    rw [TLM.fseq hz hc hp hok n F i hi] at h1
    cases h1
    exact ⟨h2, h3, h4⟩
  have lA := hI.lA; have lB := hI.lB; have lC := hI.lC
  rw [fseries_length] at lA lB lC
  simp only [TLM.outputs, TLM.setView]
  rw [eq_fseries lA fun i hi => (key i hi).1, eq_fseries lB fun i hi => (key i hi).2.1,
    eq_fseries lC fun i hi => (key i hi).2.2]
end
end TwoLayer
