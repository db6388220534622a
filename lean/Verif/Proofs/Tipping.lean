import Verif.Proofs.Sensitivity

/-!
# State-dependent feedback below the tipping point; efficacy (real numbers only)
-/

set_option linter.unusedSimpArgs false
set_option linter.unusedSectionVars false

namespace TwoLayer
namespace TLPar
variable {p : TLPar} {F : ℕ → ℝ}

/-- forcing that never exceeds the equilibrium forcing of `θ` -/
theorem below (hr : p.Resolved) (ha : 0 ≤ p.a) {θ : ℝ} (hθ : 0 ≤ θ) {k : ℕ}
    (hF : ∀ i < k, 0 ≤ F i ∧ F i ≤ (p.l - p.a * θ) * θ) :
    ∀ i ≤ k, (0 ≤ p.T F i ∧ p.T F i ≤ θ) ∧ (0 ≤ p.TD F i ∧ p.TD F i ≤ θ) := by
  have hC := hr.C; have hD := hr.D; have hdt := hr.dt
  have hA : 0 ≤ p.C - p.dt * (p.l + p.e * p.h) := by linarith [hr.upper]
  have hB : 0 ≤ p.D - p.dt * p.h := by linarith [hr.lower]
  have heh : 0 ≤ p.dt * (p.e * p.h) := mul_nonneg hdt.le (mul_nonneg hr.e hr.h)
  have hdh : 0 ≤ p.dt * p.h := mul_nonneg hdt.le hr.h
  intro i
  induction i with
  | zero => intro _; simp [hθ]
  | succ i ih =>
    intro hi
    obtain ⟨⟨t0, t1⟩, d0, d1⟩ := ih (by omega)
    obtain ⟨f0, f1⟩ := hF i (by omega)
    have hT := T_step hC.ne' F i
    have hTD := TD_step hD.ne' F i
    have sq : p.T F i ^ 2 ≤ θ ^ 2 := by nlinarith
    have m1 := mul_le_mul_of_nonneg_left t1 hA
    have m2 := mul_le_mul_of_nonneg_left d1 heh
    have m3 := mul_le_mul_of_nonneg_left (mul_le_mul_of_nonneg_left sq ha) hdt.le
    have m4 := mul_le_mul_of_nonneg_left d1 hB
    have m5 := mul_le_mul_of_nonneg_left t1 hdh
    have m6 := mul_le_mul_of_nonneg_left f1 hdt.le
    have n1 := mul_nonneg hA t0
    have n2 := mul_nonneg heh d0
    have n3 := mul_nonneg hdt.le f0
    have n4 := mul_nonneg hB d0
    have n5 := mul_nonneg hdh t0
    have n6 : 0 ≤ p.dt * (p.a * p.T F i ^ 2) := by positivity
    refine ⟨⟨?_, ?_⟩, ?_, ?_⟩
    · refine le_of_mul_le_mul_left ?_ hC
      rw [hT]; linarith
    · refine le_of_mul_le_mul_left ?_ hC
      rw [hT]; linarith
    · refine le_of_mul_le_mul_left ?_ hD
      rw [hTD]; linarith
    · refine le_of_mul_le_mul_left ?_ hD
      rw [hTD]; linarith

/-- the smaller equilibrium under forcing `c` -/
noncomputable def low (p : TLPar) (c : ℝ) : ℝ := (p.l - Real.sqrt (p.l ^ 2 - 4 * p.a * c)) / (2 * p.a)

theorem low_spec (ha : 0 < p.a) (hl : 0 < p.l) {c : ℝ} (h0 : 0 ≤ c) (hc : c ≤ p.l ^ 2 / (4 * p.a)) :
    0 ≤ p.low c ∧ (p.l - p.a * p.low c) * p.low c = c ∧ ∀ x, x ≤ p.low c → (p.l - p.a * x) * x = c → x = p.low c := by
  have hd : 0 ≤ p.l ^ 2 - 4 * p.a * c := by
    rw [le_div_iff₀ (by positivity)] at hc; linarith
  have hs := Real.sqrt_nonneg (p.l ^ 2 - 4 * p.a * c)
  have hss := Real.sq_sqrt hd
  have hsl : Real.sqrt (p.l ^ 2 - 4 * p.a * c) ≤ p.l := by
    rw [Real.sqrt_le_left hl.le]
    have := mul_nonneg ha.le h0
    linarith
  have e2 : 2 * p.a * p.low c = p.l - Real.sqrt (p.l ^ 2 - 4 * p.a * c) := by
    rw [low]; field_simp
  generalize Real.sqrt (p.l ^ 2 - 4 * p.a * c) = s at *
  have e1 : (p.l - p.a * p.low c) * p.low c = c := by
    have h4 : 4 * p.a * ((p.l - p.a * p.low c) * p.low c) = 4 * p.a * c := by
      have : 4 * p.a * ((p.l - p.a * p.low c) * p.low c) = 2 * p.l * (2 * p.a * p.low c) - (2 * p.a * p.low c) ^ 2 := by ring
      rw [this, e2]; ring_nf; linarith
    exact mul_left_cancel₀ (by positivity) h4
  refine ⟨?_, e1, ?_⟩
  · rw [low]
    have : 0 ≤ 2 * p.a * p.low c := by rw [e2]; linarith
    by_contra hn
    push Not at hn
    have : 2 * p.a * p.low c < 0 := mul_neg_of_pos_of_neg (by positivity) hn
    linarith
  · intro x hx hxe
    have hprod : (x - p.low c) * (p.l - p.a * (x + p.low c)) = 0 := by
      have : (x - p.low c) * (p.l - p.a * (x + p.low c)) = (p.l - p.a * x) * x - (p.l - p.a * p.low c) * p.low c := by ring
      rw [this, hxe, e1, sub_self]
    rcases mul_eq_zero.mp hprod with h | h
    · linarith
    · have h1 : p.a * x ≤ p.a * p.low c := mul_le_mul_of_nonneg_left hx ha.le
      have h2 : 0 ≤ s := hs
      have : p.a * (p.low c - x) = 0 := by nlinarith
      rcases mul_eq_zero.mp this with h3 | h3 <;> linarith

/-- constant forcing at or below the tipping point -/
theorem settles (hr : p.Resolved) (ha : 0 < p.a) (hh : 0 < p.h) {c : ℝ} (h0 : 0 ≤ c) (hc : c ≤ p.l ^ 2 / (4 * p.a)) :
    Filter.Tendsto (p.T fun _ => c) Filter.atTop (nhds (p.low c)) ∧
    Filter.Tendsto (p.TD fun _ => c) Filter.atTop (nhds (p.low c)) ∧
    Filter.Tendsto (p.U fun _ => c) Filter.atTop (nhds 0) := by
  obtain ⟨l0, l1, l2⟩ := low_spec ha hr.l h0 hc
  have hb := fun i => below hr ha.le l0 (F := fun _ => c) (k := i) (fun _ _ => ⟨h0, l1.ge⟩) i le_rfl
  have hm := fun i => rising hr ha.le (F := fun _ => c) (k := i + 1) h0 (fun _ _ => le_rfl) i le_rfl
  have mT : Monotone (p.T fun _ => c) := monotone_nat_of_le_succ fun i => (hm i).1
  have mD : Monotone (p.TD fun _ => c) := monotone_nat_of_le_succ fun i => (hm i).2.1
  have bT : BddAbove (Set.range (p.T fun _ => c)) := ⟨p.low c, by rintro _ ⟨i, rfl⟩; exact (hb i).1.2⟩
  have bD : BddAbove (Set.range (p.TD fun _ => c)) := ⟨p.low c, by rintro _ ⟨i, rfl⟩; exact (hb i).2.2⟩
  have tT := tendsto_atTop_ciSup mT bT
  have tD := tendsto_atTop_ciSup mD bD
  set L := ⨆ i, p.T (fun _ => c) i
  set LD := ⨆ i, p.TD (fun _ => c) i
  have sT := tT.comp (Filter.tendsto_add_atTop_nat 1)
  have sD := tD.comp (Filter.tendsto_add_atTop_nat 1)
  have hC := hr.C; have hD := hr.D; have hdt := hr.dt
  have eD : L = LD := by
    have h1 : Filter.Tendsto (fun i => p.TD (fun _ => c) i + p.dt * (p.h * (p.T (fun _ => c) i - p.TD (fun _ => c) i) / p.D))
        Filter.atTop (nhds (LD + p.dt * (p.h * (L - LD) / p.D))) :=
      tD.add ((((tT.sub tD).const_mul p.h).div_const p.D).const_mul p.dt)
    have h2 := tendsto_nhds_unique sD h1
    have h3 : p.dt * (p.h * (L - LD) / p.D) = 0 := by linarith
    rcases mul_eq_zero.mp h3 with h | h
    · exact absurd h hdt.ne'
    · rcases div_eq_zero_iff.mp h with h | h
      · rcases mul_eq_zero.mp h with h | h
        · exact absurd h hh.ne'
        · linarith
      · exact absurd h hD.ne'
  have eT : (p.l - p.a * L) * L = c := by
    have h1 : Filter.Tendsto (fun i => p.T (fun _ => c) i + p.dt * ((c - (p.l - p.a * p.T (fun _ => c) i) * p.T (fun _ => c) i -
        p.e * p.h * (p.T (fun _ => c) i - p.TD (fun _ => c) i)) / p.C))
        Filter.atTop (nhds (L + p.dt * ((c - (p.l - p.a * L) * L - p.e * p.h * (L - LD)) / p.C))) :=
      tT.add (((((tendsto_const_nhds.sub ((tendsto_const_nhds.sub (tT.const_mul p.a)).mul tT)).sub
        ((tT.sub tD).const_mul (p.e * p.h))).div_const p.C)).const_mul p.dt)
    have h2 := tendsto_nhds_unique sT h1
    have h3 : p.dt * ((c - (p.l - p.a * L) * L - p.e * p.h * (L - LD)) / p.C) = 0 := by linarith
    rw [eD, sub_self, mul_zero, sub_zero, ← eD] at h3
    rcases mul_eq_zero.mp h3 with h | h
    · exact absurd h hdt.ne'
    · rcases div_eq_zero_iff.mp h with h | h
      · linarith
      · exact absurd h hC.ne'
  have eL : L = p.low c := l2 L (le_of_tendsto' tT fun i => (hb i).1.2) eT
  rw [← eD, eL] at tD sD
  rw [eL] at tT sT
  refine ⟨tT, tD, ?_⟩
  rw [← Filter.tendsto_add_atTop_iff_nat 1]
  have h1 : Filter.Tendsto (fun i => p.C * (p.T (fun _ => c) (i + 1) - p.T (fun _ => c) i) / p.dt +
      p.D * (p.TD (fun _ => c) (i + 1) - p.TD (fun _ => c) i) / p.dt) Filter.atTop
      (nhds (p.C * (p.low c - p.low c) / p.dt + p.D * (p.low c - p.low c) / p.dt)) :=
    (((sT.sub tT).const_mul p.C).div_const p.dt).add (((sD.sub tD).const_mul p.D).div_const p.dt)
  simp only [sub_self, mul_zero, zero_div, add_zero] at h1
  exact h1

/-- a larger efficacy slows the warming under rising forcing -/
theorem anti_e {e' : ℝ} (hr : TLPar.Resolved { p with e := e' }) (he : 0 ≤ p.e) (hee : p.e ≤ e') (ha : 0 ≤ p.a) {k : ℕ} (h0 : 0 ≤ F 0)
    (hF : ∀ i, i + 1 < k → F i ≤ F (i + 1)) :
    ∀ i ≤ k, TLPar.T { p with e := e' } F i ≤ p.T F i ∧ TLPar.TD { p with e := e' } F i ≤ p.TD F i := by
  have hpC : 0 < p.C := hr.C
  have hpD : 0 < p.D := hr.D
  have hdt : 0 < p.dt := hr.dt
  have hh : 0 ≤ p.h := hr.h
  have he' : 0 ≤ e' := hr.e
  have hup : p.dt * (p.l + e' * p.h) ≤ p.C := hr.upper
  have hlo : p.dt * p.h ≤ p.D := hr.lower
  have hde : 0 ≤ p.dt * ((e' - p.e) * p.h) := mul_nonneg hdt.le (mul_nonneg (by linarith) hh)
  have hrp : p.Resolved := ⟨hpC, hpD, hr.l, he, hh, hdt, by nlinarith, hlo⟩
  have hris := rising hrp ha h0 hF
  have hn : ∀ i < k, 0 ≤ F i := by
    intro i
    induction i with
    | zero => intro _; exact h0
    | succ i ih => intro hi; exact (ih (by omega)).trans (hF i hi)
  have hnn := mono_a (p' := { p with e := e' }) hr rfl ha le_rfl hn (G := F) (fun _ _ => le_rfl)
  have hA : 0 ≤ p.C - p.dt * (p.l + e' * p.h) := by linarith
  have hB : 0 ≤ p.D - p.dt * p.h := by linarith
  have heh : 0 ≤ p.dt * (e' * p.h) := mul_nonneg hdt.le (mul_nonneg he' hh)
  have hdh : 0 ≤ p.dt * p.h := mul_nonneg hdt.le hh
  intro i
  induction i with
  | zero => intro _; simp
  | succ i ih =>
    intro hi
    obtain ⟨t, d⟩ := ih (by omega)
    obtain ⟨⟨z1, z2⟩, -⟩ := hnn i (by omega)
    have hTDle : p.TD F i ≤ p.T F i := by
      obtain ⟨r1, r2, r3, -⟩ := hris i hi
      linarith
    have hT := T_step hpC.ne' F i
    have hT' := T_step (p := { p with e := e' }) hpC.ne' F i
    have hTD := TD_step hpD.ne' F i
    have hTD' := TD_step (p := { p with e := e' }) hpD.ne' F i
    simp only at hT' hTD'
    generalize TLPar.T { p with e := e' } F i = tg at *
    generalize TLPar.T { p with e := e' } F (i+1) = tg' at *
    generalize TLPar.TD { p with e := e' } F i = dg at *
    generalize TLPar.TD { p with e := e' } F (i+1) = dg' at *
    have sq : tg ^ 2 ≤ p.T F i ^ 2 := by nlinarith
    have hsq : p.a * tg ^ 2 ≤ p.a * p.T F i ^ 2 := mul_le_mul_of_nonneg_left sq ha
    have m1 := mul_le_mul_of_nonneg_left t hA
    have m2 := mul_le_mul_of_nonneg_left d heh
    have m4 := mul_le_mul_of_nonneg_left d hB
    have m5 := mul_le_mul_of_nonneg_left t hdh
    have m6 := mul_le_mul_of_nonneg_left hsq hdt.le
    have m7 := mul_le_mul_of_nonneg_left hTDle hde
    constructor
    · refine le_of_mul_le_mul_left ?_ hpC
      rw [hT, hT']; linarith
    · refine le_of_mul_le_mul_left ?_ hpD
      rw [hTD, hTD']; linarith

end TLPar
end TwoLayer
