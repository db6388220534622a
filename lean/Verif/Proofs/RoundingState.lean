import Verif.Proofs.RoundingTL
import Verif.Proofs.AccuracyState
import Verif.Spec.RoundingState

/-! # Rounding errors of a two-layer run with state-dependent feedback -/

set_option linter.unusedSimpArgs false
set_option linter.unusedSectionVars false

namespace TwoLayer

theorem gamma8 {u : ℝ} (hu : 0 ≤ u) (hu1 : u ≤ 1 / 100) : (1 + u) ^ 8 - 1 ≤ 9 * u := by
  have : (1 + u) ^ 8 - 1 = u * (8 + 28 * u + 56 * u ^ 2 + 70 * u ^ 3 + 56 * u ^ 4 + 28 * u ^ 5 + 8 * u ^ 6 + u ^ 7) := by ring
  rw [this, mul_comm 9 u]
  apply mul_le_mul_of_nonneg_left _ hu
  have h2 : u ^ 2 ≤ u * (1 / 100) := by nlinarith
  have h3 : u ^ 3 ≤ u ^ 2 := pow_le_pow_of_le_one hu (by linarith) (by norm_num)
  have h4 : u ^ 4 ≤ u ^ 2 := pow_le_pow_of_le_one hu (by linarith) (by norm_num)
  have h5 : u ^ 5 ≤ u ^ 2 := pow_le_pow_of_le_one hu (by linarith) (by norm_num)
  have h6 : u ^ 6 ≤ u ^ 2 := pow_le_pow_of_le_one hu (by linarith) (by norm_num)
  have h7 : u ^ 7 ≤ u ^ 2 := pow_le_pow_of_le_one hu (by linarith) (by norm_num)
  linarith

namespace TLPar
variable {r : Rounding} {p : TLPar} {u μ Ω K : ℝ}

theorem fu_err_state (hr : r.Accurate u μ Ω) (hu : 0 ≤ u) (hu1 : u ≤ 1 / 100) (hp : p.Pos)
    (hup : p.dt * (p.l + p.e * p.h) ≤ p.C) (haK : |p.a| * (2 * K) ≤ p.l)
    (hin : p.InRange K μ Ω) (hK : 0 ≤ K) {F T TD : ℝ} (hF : |F| ≤ p.l * K) (hT : |T| ≤ 2 * K) (hTD : |TD| ≤ 2 * K) :
    |p.fu r F T TD - (T + p.dt * ((F - (p.l - p.a * T) * T - p.e * p.h * (T - TD)) / p.C))| ≤ 64 * u * K := by
  have hC := hp.C; have hl := hp.l; have he := hp.e; have hh := hp.h; have hdt := hp.dt
  have heh : 0 < p.e * p.h := mul_pos he hh
  simp only [TLPar.InRange, List.forall_mem_cons, List.not_mem_nil, IsEmpty.forall_iff, forall_const, and_true] at hin
  obtain ⟨⟨m1, o1⟩, ⟨m2, o2⟩, ⟨m3, o3⟩, ⟨m4, o4⟩, ⟨m5, o5⟩, ⟨m6, o6⟩, ⟨m7, o7⟩, -, -, -, -, -, -, -, ⟨m15, o15⟩⟩ := hin
  have p2 : ∀ {k : ℕ} {B : ℝ}, k ≤ 7 → 0 ≤ B → 2 * B ≤ Ω → (1 + u) ^ k * B ≤ Ω := fun hk hB hΩ =>
    (mul_le_mul_of_nonneg_right (pow_le_two hu hu1 hk) hB).trans hΩ
  have n1 : 0 ≤ p.l * K := by positivity
  have n2 : 0 ≤ p.e * p.h * K := by positivity
  have xT : Ap u 0 T (2 * K) T := Ap.exact hT
  have xTD : Ap u 0 TD (2 * K) TD := Ap.exact hTD
  have xF : Ap u 0 F (p.l * K) F := Ap.exact hF
  have hax : |p.a * T| ≤ p.l := by
    rw [abs_mul]
    exact (mul_le_mul_of_nonneg_left hT (abs_nonneg _)).trans haK
  -- λ
  have a0 : Ap u 1 (p.a * T) p.l (r.fl (p.a * T)) :=
    (Ap.exact hax).round hr hu m1 (p2 (by norm_num) hl.le (by linarith))
  have l0 : Ap u 1 p.l p.l p.l :=
    (Ap.exact (u := u) (le_of_eq (abs_of_pos hl))).mono hu (by norm_num) le_rfl
  have a1 : Ap u 2 (p.l - p.a * T) (p.l + p.l) (r.fl (p.l - r.fl (p.a * T))) :=
    (l0.sub a0).round hr hu (by linarith) (p2 (by norm_num) (by positivity) (by linarith))
  have a2 : Ap u 3 ((p.l - p.a * T) * T) ((p.l + p.l) * (2 * K)) (r.fl (r.fl (p.l - r.fl (p.a * T)) * T)) :=
    (a1.mul hu xT).round hr hu (by linarith) (p2 (by norm_num) (by positivity) (by linarith))
  have a3 : Ap u 4 (F - (p.l - p.a * T) * T) (p.l * K + (p.l + p.l) * (2 * K))
      (r.fl (F - r.fl (r.fl (p.l - r.fl (p.a * T)) * T))) :=
    ((xF.mono hu (by norm_num) le_rfl).sub a2).round hr hu (by linarith) (p2 (by norm_num) (by positivity) (by linarith))
  have b1 : Ap u 1 (p.e * p.h) (p.e * p.h) (r.fl (p.e * p.h)) := by
    have h0 : Ap u 0 (p.e * p.h) (p.e * p.h) (p.e * p.h) := Ap.exact (le_of_eq (abs_of_pos heh))
    exact h0.round hr hu m3 (p2 (by norm_num) heh.le (by linarith))
  have b2 : Ap u 1 (T - TD) (2 * K + 2 * K) (r.fl (T - TD)) :=
    (xT.sub xTD).round hr hu (by linarith) (p2 (by norm_num) (by positivity) (by linarith))
  have b3 : Ap u 3 (p.e * p.h * (T - TD)) (p.e * p.h * (2 * K + 2 * K)) (r.fl (r.fl (p.e * p.h) * r.fl (T - TD))) :=
    (b1.mul hu b2).round hr hu (by linarith) (p2 (by norm_num) (by positivity) (by linarith))
  set H := p.l * K + (p.l + p.l) * (2 * K) + p.e * p.h * (2 * K + 2 * K) with hH
  have hH' : H = 5 * (p.l * K) + 4 * (p.e * p.h * K) := by rw [hH]; ring
  have hH0 : 0 ≤ H := by rw [hH']; positivity
  have a4 := (a3.sub (b3.mono hu (by norm_num : 3 ≤ 4) le_rfl)).round hr hu (by rw [← hH]; linarith)
    (p2 (by norm_num) (by positivity) (by rw [← hH]; linarith))
  rw [← hH] at a4
  have s1 : H / p.C = 5 * (p.l * K / p.C) + 4 * (p.e * p.h * K / p.C) := by rw [hH']; ring
  have s2 : (p.l + p.e * p.h) * K / p.C = p.l * K / p.C + p.e * p.h * K / p.C := by ring
  have t1 : 0 ≤ p.l * K / p.C := by positivity
  have t2 : 0 ≤ p.e * p.h * K / p.C := by positivity
  have a5 := (a4.div hC).round hr hu (by rw [s1]; linarith) (p2 (by norm_num) (by positivity) (by rw [s1]; linarith))
  have s3 : p.dt * (H / p.C) = 5 * (p.dt * (p.l * K) / p.C) + 4 * (p.dt * (p.e * p.h * K) / p.C) := by rw [s1]; ring
  have t3 : 0 ≤ p.dt * (p.l * K) / p.C := by positivity
  have t4 : 0 ≤ p.dt * (p.e * p.h * K) / p.C := by positivity
  have s4 : p.dt * (p.l * K) / p.C + p.dt * (p.e * p.h * K) / p.C ≤ K := by
    rw [← add_div, div_le_iff₀ hC]
    calc p.dt * (p.l * K) + p.dt * (p.e * p.h * K) = p.dt * (p.l + p.e * p.h) * K := by ring
      _ ≤ p.C * K := mul_le_mul_of_nonneg_right hup hK
      _ = _ := by ring
  have s5 : p.dt * (H / p.C) ≤ 5 * K := by rw [s3]; linarith
  have a6 := (a5.smul hdt.le).round hr hu (by rw [s3]; linarith) (p2 (by norm_num) (by positivity) (by linarith))
  have a7 := ((xT.mono hu (by norm_num : 0 ≤ 7) le_rfl).add a6).round hr hu (by rw [s3]; linarith)
    (p2 (by norm_num) (by positivity) (by linarith))
  calc |p.fu r F T TD - (T + p.dt * ((F - (p.l - p.a * T) * T - p.e * p.h * (T - TD)) / p.C))| ≤ _ := a7.2
    _ ≤ 9 * u * (2 * K + 5 * K) := by
        have := gamma8 hu hu1
        gcongr
    _ ≤ _ := by nlinarith [mul_nonneg hu hK]

/-- the rounded run stays close to the exact one -/
theorem fsol_err_state (hr : r.Accurate u μ Ω) (hu : 0 ≤ u) (hu1 : u ≤ 1 / 100) (hp : p.Pos) {ν : ℝ}
    (hν : 2 * ν = p.l - 2 * |p.a| * K) (hν0 : 0 < ν) (hup : p.dt * (p.l + 3 * |p.a| * K + p.e * p.h) ≤ p.C)
    (hlo : p.dt * p.h ≤ p.D) (hin : p.InRange K μ Ω) (hK : 0 ≤ K) (hκ : 64 * u * p.memoryAt ν * p.l ≤ ν) {F : ℕ → ℝ} {k : ℕ}
    (hF : ∀ i < k, |F i| ≤ (p.l - |p.a| * K) * K) :
    ∀ i ≤ k, |(p.fsol r F i).1 - p.T F i| ≤ 64 * u * K * ((p.C + p.e * p.D) / (p.dt * ν)) ∧
      |(p.fsol r F i).2.1 - p.TD F i| ≤ 64 * u * K * p.memoryAt ν ∧
      64 * u * K * ((p.C + p.e * p.D) / (p.dt * ν)) ≤ 64 * u * K * p.memoryAt ν ∧ 64 * u * K * p.memoryAt ν ≤ K ∧
      |p.T F i| ≤ K ∧ |p.TD F i| ≤ K := by
  have hC := hp.C; have hD := hp.D; have hl := hp.l; have he := hp.e; have hh := hp.h; have hdt := hp.dt
  have heh : 0 < p.e * p.h := mul_pos he hh
  have haK0 : 0 ≤ |p.a| * K := mul_nonneg (abs_nonneg _) hK
  have haK : |p.a| * (2 * K) ≤ p.l := by linarith
  have hνl : ν ≤ p.l := by linarith
  have hup2 : p.dt * (p.l + p.e * p.h) ≤ p.C := by
    refine le_trans ?_ hup
    gcongr; linarith
  have hup3 : p.dt * (p.l + 2 * |p.a| * K + p.e * p.h) ≤ p.C := by
    refine le_trans ?_ hup
    gcongr; norm_num
  set δ := 64 * u * K with hδ
  have hδ0 : 0 ≤ δ := by positivity
  set Eu := δ * ((p.C + p.e * p.D) / (p.dt * ν)) with hEu
  set El := δ * p.memoryAt ν with hEl
  have hm0 : 0 ≤ p.memoryAt ν := by unfold memoryAt; positivity
  have hEuEl : El = Eu + δ * (p.D / (p.dt * p.h)) := by rw [hEl, hEu, memoryAt]; ring
  have hEu0 : 0 ≤ Eu := by positivity
  have hle : Eu ≤ El := by
    rw [hEuEl]
    have : 0 ≤ δ * (p.D / (p.dt * p.h)) := by positivity
    linarith
  have hκ1 : 64 * u * p.memoryAt ν ≤ 1 := by
    have : 64 * u * p.memoryAt ν * p.l ≤ 1 * p.l := by linarith
    exact le_of_mul_le_mul_right this hl
  have hElK : El ≤ K := by
    have : El = (64 * u * p.memoryAt ν) * K := by rw [hEl, hδ]; ring
    rw [this]
    exact mul_le_of_le_one_left hK hκ1
  have hEla : |p.a| * El ≤ ν := by
    have h1 : |p.a| * El = (64 * u * p.memoryAt ν) * (|p.a| * K) := by rw [hEl, hδ]; ring
    rw [h1]
    refine le_trans ?_ hκ
    have : |p.a| * K ≤ p.l := by linarith
    gcongr
  have hbd := bounded_state hC hD he.le hh.le hdt hK le_rfl hup3 hlo hF
  have hF' : ∀ i < k, |F i| ≤ p.l * K := fun i hi => (hF i hi).trans (by
    have : 0 ≤ |p.a| * K * K := by positivity
    linarith)
  have hres' : p.Resolved := ⟨hC, hD, hl, he.le, hh.le, hdt, hup2, hlo⟩
  intro i
  induction i with
  | zero => intro _; simp [fsol, TLPar.T, TLPar.TD, TLPar.sol]; exact ⟨hEu0, hEu0.trans hle, hle, hElK, hK⟩
  | succ i ih =>
    intro hi
    obtain ⟨h1, h2, -, -, b1, b2⟩ := ih (by omega)
    obtain ⟨b3, b4⟩ := hbd (i + 1) hi
    set T := (p.fsol r F i).1 with hTdef
    set TD := (p.fsol r F i).2.1 with hTDdef
    have bT : |T| ≤ 2 * K := by
      calc |T| = |(T - p.T F i) + p.T F i| := by congr 1; ring
        _ ≤ |T - p.T F i| + |p.T F i| := abs_add_le _ _
        _ ≤ 2 * K := by linarith
    have bTD : |TD| ≤ 2 * K := by
      calc |TD| = |(TD - p.TD F i) + p.TD F i| := by congr 1; ring
        _ ≤ |TD - p.TD F i| + |p.TD F i| := abs_add_le _ _
        _ ≤ 2 * K := by linarith
    have e1 := fu_err_state hr hu hu1 hp hup2 haK hin hK (hF' i (by omega)) bT bTD
    have e2 := fd_err hr hu hu1 hp hres' hin hK bT bTD
    have c1 : (p.fsol r F (i + 1)).1 = p.fu r (F i) T TD := rfl
    have c2 : (p.fsol r F (i + 1)).2.1 = p.fd r T TD := rfl
    rw [c1, c2]
    rw [TLPar.T_succ] at b3 ⊢
    rw [TLPar.TD_succ] at b4 ⊢
    rw [← hδ] at e1
    have e2 : |p.fd r T TD - (TD + p.dt * (p.h * (T - TD) / p.D))| ≤ δ := e2.trans (by
      rw [hδ]
      have := mul_nonneg hu hK
      linarith)
    refine ⟨?_, ?_, hle, hElK, b3, b4⟩
    · -- the feedback felt by the difference
      set φ := p.l - p.a * (T + p.T F i) with hφ
      have bsum : |T + p.T F i| ≤ 2 * K + El := by
        calc |T + p.T F i| = |(T - p.T F i) + 2 * p.T F i| := by congr 1; ring
          _ ≤ |T - p.T F i| + |2 * p.T F i| := abs_add_le _ _
          _ ≤ El + 2 * K := by
              rw [abs_mul, abs_of_pos (by norm_num : (0 : ℝ) < 2)]
              linarith
          _ = _ := by ring
      have hap : |p.a * (T + p.T F i)| ≤ |p.a| * (2 * K + El) := by
        rw [abs_mul]; gcongr
      obtain ⟨ap1, ap2⟩ := abs_le.mp hap
      have hφν : ν ≤ φ := by
        rw [hφ]
        linarith
      have hφu : φ ≤ p.l + 3 * |p.a| * K := by
        have : |p.a| * El ≤ |p.a| * K := by gcongr
        rw [hφ]; linarith
      set α := 1 - p.dt * (φ + p.e * p.h) / p.C with hα
      set β := p.dt * (p.e * p.h) / p.C with hβ
      have hα0 : 0 ≤ α := by
        rw [hα, sub_nonneg, div_le_one hC]
        refine le_trans ?_ hup
        gcongr
      have hα1 : α ≤ 1 - p.dt * (ν + p.e * p.h) / p.C := by
        rw [hα]
        gcongr
      have hβ0 : 0 ≤ β := by positivity
      have key : p.fu r (F i) T TD - (p.T F i + p.dt * ((F i - (p.l - p.a * p.T F i) * p.T F i -
          p.e * p.h * (p.T F i - p.TD F i)) / p.C)) =
          (p.fu r (F i) T TD - (T + p.dt * ((F i - (p.l - p.a * T) * T - p.e * p.h * (T - TD)) / p.C))) +
          (α * (T - p.T F i) + β * (TD - p.TD F i)) := by
        rw [hα, hβ, hφ]; field_simp; ring
      rw [key]
      calc _ ≤ δ + (α * Eu + β * El) := by
            refine (abs_add_le _ _).trans (add_le_add e1 ((abs_add_le _ _).trans ?_))
            rw [abs_mul, abs_mul, abs_of_nonneg hα0, abs_of_nonneg hβ0]
            gcongr
        _ ≤ δ + ((1 - p.dt * (ν + p.e * p.h) / p.C) * Eu + β * El) := by gcongr
        _ = Eu := by
            rw [hEuEl, hβ, hEu]; field_simp; ring
    · set α := 1 - p.dt * p.h / p.D with hα
      set β := p.dt * p.h / p.D with hβ
      have hα0 : 0 ≤ α := by
        rw [hα, sub_nonneg, div_le_one hD]; exact hlo
      have hβ0 : 0 ≤ β := by positivity
      have key : p.fd r T TD - (p.TD F i + p.dt * (p.h * (p.T F i - p.TD F i) / p.D)) =
          (p.fd r T TD - (TD + p.dt * (p.h * (T - TD) / p.D))) +
          (α * (TD - p.TD F i) + β * (T - p.T F i)) := by
        rw [hα, hβ]; field_simp; ring
      rw [key]
      calc _ ≤ δ + (α * El + β * Eu) := by
            refine (abs_add_le _ _).trans (add_le_add e2 ((abs_add_le _ _).trans ?_))
            rw [abs_mul, abs_mul, abs_of_nonneg hα0, abs_of_nonneg hβ0]
            gcongr
        _ = El := by
            rw [hEuEl, hα, hβ]; field_simp; ring

/-- heat uptake of the rounded run -/
theorem fsol_uptake_state (hr : r.Accurate u μ Ω) (hu : 0 ≤ u) (hu1 : u ≤ 1 / 100) (hp : p.Pos) {ν : ℝ}
    (hν : 2 * ν = p.l - 2 * |p.a| * K) (hν0 : 0 < ν) (hup : p.dt * (p.l + 3 * |p.a| * K + p.e * p.h) ≤ p.C)
    (hlo : p.dt * p.h ≤ p.D) (hin : p.InRange K μ Ω) (hK : 0 ≤ K) (hκ : 64 * u * p.memoryAt ν * p.l ≤ ν) {F : ℕ → ℝ} {k : ℕ}
    (hF : ∀ i < k, |F i| ≤ (p.l - |p.a| * K) * K) :
    ∀ i ≤ k, |(p.fsol r F i).2.2 - p.U F i| ≤ u * (32 + 128 * p.memoryAt ν) * (K * (p.C + p.D) / p.dt) := by
  have hC := hp.C; have hD := hp.D; have hl := hp.l; have he := hp.e; have hh := hp.h; have hdt := hp.dt
  have hm0 : 0 ≤ p.memoryAt ν := by unfold memoryAt; positivity
  have hall := fsol_err_state hr hu hu1 hp hν hν0 hup hlo hin hK hκ hF
  have hEl : ∀ i ≤ k, |(p.fsol r F i).1 - p.T F i| ≤ 64 * u * K * p.memoryAt ν ∧
      |(p.fsol r F i).2.1 - p.TD F i| ≤ 64 * u * K * p.memoryAt ν ∧ |(p.fsol r F i).1| ≤ 2 * K ∧ |(p.fsol r F i).2.1| ≤ 2 * K := by
    intro i hi
    obtain ⟨h1, h2, h3, h4, b1, b2⟩ := hall i hi
    refine ⟨h1.trans h3, h2, ?_, ?_⟩
    · calc |(p.fsol r F i).1| = |((p.fsol r F i).1 - p.T F i) + p.T F i| := by congr 1; ring
        _ ≤ |(p.fsol r F i).1 - p.T F i| + |p.T F i| := abs_add_le _ _
        _ ≤ 2 * K := by linarith
    · calc |(p.fsol r F i).2.1| = |((p.fsol r F i).2.1 - p.TD F i) + p.TD F i| := by congr 1; ring
        _ ≤ |(p.fsol r F i).2.1 - p.TD F i| + |p.TD F i| := abs_add_le _ _
        _ ≤ 2 * K := by linarith
  intro i hi
  cases i with
  | zero =>
    simp only [fsol, TLPar.U_zero, sub_zero, abs_zero]
    positivity
  | succ i =>
    obtain ⟨h1, h2, b1, b2⟩ := hEl i (by omega)
    obtain ⟨h3, h4, b3, b4⟩ := hEl (i + 1) hi
    have e := fr_err hr hu hu1 hp hin hK b1 b2 b3 b4
    have c : (p.fsol r F (i + 1)).2.2 = p.fr r (p.fsol r F i).1 (p.fsol r F i).2.1 (p.fsol r F (i + 1)).1
      (p.fsol r F (i + 1)).2.1 := rfl
    rw [c, TLPar.U_succ]
    set T := (p.fsol r F i).1
    set TD := (p.fsol r F i).2.1
    set T' := (p.fsol r F (i + 1)).1
    set TD' := (p.fsol r F (i + 1)).2.1
    set E := 64 * u * K * p.memoryAt ν
    have key : p.fr r T TD T' TD' - (p.C * (p.T F (i + 1) - p.T F i) / p.dt + p.D * (p.TD F (i + 1) - p.TD F i) / p.dt) =
        (p.fr r T TD T' TD' - (p.C * (T' - T) / p.dt + p.D * (TD' - TD) / p.dt)) +
        (p.C / p.dt * ((T' - p.T F (i + 1)) - (T - p.T F i)) + p.D / p.dt * ((TD' - p.TD F (i + 1)) - (TD - p.TD F i))) := by
      ring
    rw [key]
    calc _ ≤ 32 * u * (K * (p.C + p.D) / p.dt) + (p.C / p.dt * (E + E) + p.D / p.dt * (E + E)) := by
          refine (abs_add_le _ _).trans (add_le_add e ((abs_add_le _ _).trans ?_))
          rw [abs_mul, abs_mul, abs_of_nonneg (by positivity : 0 ≤ p.C / p.dt), abs_of_nonneg (by positivity : 0 ≤ p.D / p.dt)]
          have g1 : |(T' - p.T F (i + 1)) - (T - p.T F i)| ≤ E + E := (abs_sub _ _).trans (add_le_add h3 h1)
          have g2 : |(TD' - p.TD F (i + 1)) - (TD - p.TD F i)| ≤ E + E := (abs_sub _ _).trans (add_le_add h4 h2)
          gcongr
      _ = _ := by simp only [E]; ring

end TLPar
end TwoLayer
