import Verif.Proofs.RoundingGeo
import Verif.Props.RoundingConv

/-!
# C103: accuracy of `get_impulse_response_parameters`

`FR r`, `Rounding.Accurate`, `double`, `TLM.Plain`, `Geo.sizes`, `Geo.qSizes` and `Geo.cond` are in `Spec/Rounding.lean`;
the exact parameters `Geo.tau1`, `Geo.tau2`, `Geo.q1`, `Geo.q2` in `Spec/Geoffroy.lean`.
-/

set_option linter.unusedSimpArgs false
set_option linter.unusedSectionVars false

namespace TwoLayer

section
variable {N : Type} [Fintype N] [DecidableEq N] {r : Rounding} {R : Registry N (FR r)}

/-- **C103**.  Parameters in the units of the model, every operation rounded with relative error at most `u`.  The conversion
succeeds.  With `κ = (d2 + d1) / (d2 - d1)`, both timescales have an error of at most `180 u κ d2`, and both coefficients one of at
most `2000 u κ² d2 / C`: the error of the short timescale is of the size of the rounding error of the *long* one. -/
theorem C103_impulse_response_parameters {u μ Ω : ℝ} (hr : r.Accurate u μ Ω) (hu : 0 ≤ u) {m : TLM N (FR r)}
    {du dl l e h : ℝ} (hp : m.Plain R du dl l e h) (hdu : 0 < du) (hdl : 0 < dl) (hl : 0 < l) (he : 0 < e) (hh : 0 < h)
    {C D κ : ℝ} (hC : C = du * 4181 * 1000) (hD : D = dl * 4181 * 1000) (hκ : κ = Geo.cond C D l e h)
    (hs : 20000 * u * κ ^ 2 ≤ 1) (hin : ∀ x ∈ Geo.sizes du dl l e h ++ Geo.qSizes C D l e h, μ ≤ x ∧ 2 * x ≤ Ω) :
    ∃ t d1' d2' q1' q2', m.getImpulseResponseParameters R = .ok t ∧
      t.d1 = ⟨FR.fin d1', R.m + R.heatCapacityWater.unit + R.densityWater.unit - R.wm2c⟩ ∧
      t.d2 = ⟨FR.fin d2', R.m + R.heatCapacityWater.unit + R.densityWater.unit - R.wm2c⟩ ∧
      t.q1 = ⟨FR.fin q1', -R.wm2c⟩ ∧ t.q2 = ⟨FR.fin q2', -R.wm2c⟩ ∧ t.efficacy = m.efficacy ∧
      |d1' - Geo.tau1 C D l e h| ≤ 180 * u * κ * Geo.tau2 C D l e h ∧
      |d2' - Geo.tau2 C D l e h| ≤ 180 * u * κ * Geo.tau2 C D l e h ∧
      |q1' - Geo.q1 C D l e h| ≤ 2000 * u * κ ^ 2 * (Geo.tau2 C D l e h / C) ∧
      |q2' - Geo.q2 C D l e h| ≤ 2000 * u * κ ^ 2 * (Geo.tau2 C D l e h / C) := by
  have ex : ∀ {x : ℝ}, 0 < x → Ap u 1 x x x := fun h => (Ap.exact (abs_of_pos h).le).mono hu (by norm_num) le_rfl
  exact TLM.fgetIR_err hr hu hp.du hp.dl hp.lambda0 (by rw [hp.a]) hp.efficacy hp.eta (ex hdu) (ex hdl) (ex hl) (ex hh) hdu hdl hl he hh
    hC hD hκ hs hin
end

/-! ## `TwoLayerModel()` in double precision -/

/-- `x` is positive and between the bounds -/
def Btw (x a b : ℝ) : Prop := 0 < a ∧ a ≤ x ∧ x ≤ b

namespace Btw
variable {x y a b c d : ℝ}
theorem mul (h : Btw x a b) (h' : Btw y c d) : Btw (x * y) (a * c) (b * d) :=
  ⟨mul_pos h.1 h'.1, mul_le_mul h.2.1 h'.2.1 h'.1.le (h.1.le.trans h.2.1),
    mul_le_mul h.2.2 h'.2.2 (h'.1.le.trans h'.2.1) (h.1.le.trans (h.2.1.trans h.2.2))⟩
theorem div (h : Btw x a b) (h' : Btw y c d) : Btw (x / y) (a / d) (b / c) :=
  ⟨div_pos h.1 (h'.1.trans_le (h'.2.1.trans h'.2.2)),
    div_le_div₀ (h.1.le.trans h.2.1) h.2.1 (h'.1.trans_le h'.2.1) h'.2.2,
    div_le_div₀ (h.1.le.trans (h.2.1.trans h.2.2)) h.2.2 h'.1 h'.2.1⟩
theorem add (h : Btw x a b) (h' : Btw y c d) : Btw (x + y) (a + c) (b + d) :=
  ⟨add_pos h.1 h'.1, add_le_add h.2.1 h'.2.1, add_le_add h.2.2 h'.2.2⟩
theorem lit (h : 0 < x) : Btw x x x := ⟨h, le_rfl, le_rfl⟩
theorem pos (h : Btw x a b) : 0 < x := h.1.trans_le h.2.1
theorem ok (h : Btw x a b) (ha : 10⁻¹ ^ 60 ≤ a) (hb : b ≤ 10 ^ 60) : (2⁻¹ : ℝ) ^ 1022 ≤ x ∧ 2 * x ≤ 10 ^ 61 := by
  have h1 : (2⁻¹ : ℝ) ^ 1022 ≤ 10⁻¹ ^ 60 := by
    calc (2⁻¹ : ℝ) ^ 1022 ≤ 2⁻¹ ^ 200 := pow_le_pow_of_le_one (by norm_num) (by norm_num) (by norm_num)
      _ ≤ _ := by norm_num
  exact ⟨h1.trans (ha.trans h.2.1), by linarith [h.2.2]⟩
end Btw

set_option maxHeartbeats 2000000 in
theorem defaultD_geo {l h : ℝ} (hl : Btw l 1.24 1.25) (hh : Btw h 0.79 0.81) :
    (∀ x ∈ Geo.sizes 50 1200 l 1 h ++ Geo.qSizes 209050000 5017200000 l 1 h, (2⁻¹ : ℝ) ^ 1022 ≤ x ∧ 2 * x ≤ 10 ^ 61) ∧
    Geo.cond 209050000 5017200000 l 1 h ^ 2 ≤ 1.1 ∧ Geo.tau2 209050000 5017200000 l 1 h ≤ 1.1 * 10 ^ 10 := by
  have hl0 := hl.pos
  have hh0 := hh.pos
  have C0 : (0 : ℝ) < 209050000 := by norm_num
  have D0 : (0 : ℝ) < 5017200000 := by norm_num
  obtain ⟨-, k2, -⟩ := Geo.cond_sq C0 D0 hl0 one_pos hh0
  have d0 := Geo.delta_pos C0 D0 hl0 one_pos hh0
  have φp := Geo.phi_sub C0 D0 hl0 one_pos hh0
  obtain ⟨b, hb⟩ : ∃ b, b = Geo.b 209050000 5017200000 l 1 h := ⟨_, rfl⟩
  obtain ⟨δ, hδ⟩ : ∃ δ, δ = Geo.delta 209050000 5017200000 l 1 h := ⟨_, rfl⟩
  have eb : b = (l + 1 * h) / 209050000 + h / 5017200000 := by rw [hb]; rfl
  have eδ : δ = b ^ 2 - 4 * l * h / (209050000 * 5017200000) := by rw [hδ, hb]; rfl
  have ht : Geo.tau2 209050000 5017200000 l 1 h = 209050000 * 5017200000 / (2 * l * h) * (b + √δ) := by rw [hb, hδ]; rfl
  rw [← hb, ← hδ] at k2
  rw [← hδ] at d0 φp
  have B1 : Btw (1 : ℝ) 1 1 := .lit one_pos
  have BC : Btw (209050000 : ℝ) 209050000 209050000 := .lit C0
  have BD : Btw (5017200000 : ℝ) 5017200000 5017200000 := .lit D0
  have B2 : Btw (2 : ℝ) 2 2 := .lit two_pos
  have B4 : Btw (4 : ℝ) 4 4 := .lit (by norm_num)
  have Bb : Btw b 0.00000000986 0.0000000101 := by
    have := ((hl.add (B1.mul hh)).div BC).add (hh.div BD)
    rw [← eb] at this
    exact ⟨by norm_num, le_trans (by norm_num) this.2.1, this.2.2.trans (by norm_num)⟩
  have Bn := ((B4.mul hl).mul hh).div (BC.mul BD)
  have Bδ : Btw δ (9.3 / 10 ^ 17) (1.0201 / 10 ^ 16) := by
    refine ⟨by norm_num, ?_, ?_⟩
    · rw [eδ]
      have h1 : (0.00000000986 : ℝ) ^ 2 ≤ b ^ 2 := pow_le_pow_left₀ (by norm_num) Bb.2.1 2
      have h2 := Bn.2.2
      norm_num at h1 h2 ⊢
      linarith
    · rw [eδ]
      have h1 : b ^ 2 ≤ (0.0000000101 : ℝ) ^ 2 := pow_le_pow_left₀ Bb.pos.le Bb.2.2 2
      have h2 := Bn.pos
      norm_num at h1 h2 ⊢
      linarith
  have Bs : Btw (√δ) 0.0000000096 0.0000000101 := by
    refine ⟨by norm_num, Real.le_sqrt_of_sq_le (le_trans (by norm_num) Bδ.2.1), ?_⟩
    rw [Real.sqrt_le_left (by norm_num)]
    exact Bδ.2.2.trans (by norm_num)
  have Bbb : Btw (b ^ 2) (0.00000000986 ^ 2) (0.0000000101 ^ 2) := by rw [sq, sq, sq]; exact Bb.mul Bb
  have Bg := Bb.add ((B2.mul Bbb).div Bs)
  have Btc := (BC.mul BD).div ((B2.mul hl).mul hh)
  have Bpc := BC.div ((B2.mul B1).mul hh)
  have Bt2 := Btc.mul (Bb.add Bs)
  have Bdp := (BC.mul Bs).div (B1.mul hh)
  refine ⟨?_, ?_, ?_⟩
  · unfold Geo.sizes Geo.qSizes
    have eC : (50 : ℝ) * 4181 * 1000 = 209050000 := by norm_num
    have eD : (1200 : ℝ) * 4181 * 1000 = 5017200000 := by norm_num
    simp only [eC, eD, φp, ht, ← hb, ← hδ, List.cons_append, List.nil_append]
    simp only [List.forall_mem_cons, List.not_mem_nil, IsEmpty.forall_iff, forall_const, and_true]
    have q : ∀ {x : ℝ}, 0 < x → Btw x x x := fun h => .lit h
    refine ⟨(q (by norm_num)).ok ?_ ?_, (q (by norm_num)).ok ?_ ?_, B4.ok ?_ ?_, B2.ok ?_ ?_, (q (by norm_num)).ok ?_ ?_,
      (q (by norm_num)).ok ?_ ?_, BC.ok ?_ ?_, BD.ok ?_ ?_, (BC.mul BD).ok ?_ ?_, (B1.mul hh).ok ?_ ?_, (hl.add (B1.mul hh)).ok ?_ ?_,
      ((hl.add (B1.mul hh)).div BC).ok ?_ ?_, (hh.div BD).ok ?_ ?_, Bb.ok ?_ ?_, Bbb.ok ?_ ?_, (B2.mul Bbb).ok ?_ ?_,
      (B4.mul hl).ok ?_ ?_, ((B4.mul hl).mul hh).ok ?_ ?_, Bn.ok ?_ ?_, ((B2.mul Bbb).div Bs).ok ?_ ?_, Bg.ok ?_ ?_,
      (B2.mul hl).ok ?_ ?_, ((B2.mul hl).mul hh).ok ?_ ?_, Btc.ok ?_ ?_, (Btc.mul Bg).ok ?_ ?_, (B2.mul B1).ok ?_ ?_,
      ((B2.mul B1).mul hh).ok ?_ ?_, Bpc.ok ?_ ?_, (Bpc.mul Bg).ok ?_ ?_, (B2.mul (Bpc.mul Bg)).ok ?_ ?_,
      (BC.mul (B2.mul (Bpc.mul Bg))).ok ?_ ?_, (Bt2.mul Bdp).ok ?_ ?_, (BC.mul Bdp).ok ?_ ?_, (Bt2.div BC).ok ?_ ?_⟩ <;> norm_num
  · rw [k2]
    refine (Bbb.div Bδ).2.2.trans ?_
    norm_num
  · rw [ht]
    exact Bt2.2.2.trans (by norm_num)

theorem TLM.default_plain {m : TLM U0 (FR double)} (hm : TLM.init U0.regD (TLM.defaultArgs U0.regD) = .ok m) :
    m.Plain U0.regD 50 1200 TLPar.defaultD.l 1 TLPar.defaultD.h := by
  have hi : TLM.init U0.regD (TLM.defaultArgs U0.regD) = .ok _ := TLM.init_good U0.dimensionalD (Or.inl rfl) (Or.inl rfl) (Or.inl rfl)
    (Or.inl rfl) (Or.inl rfl) (Or.inl rfl) (Or.inl rfl)
  have hi' := hi.symm.trans hm
  injection hi' with hi'
  rw [← hi']
  have n : ∀ k : ℕ, k < 2 ^ 53 → (Arith.ofNat k : FR double) = FR.fin k := fun k hk => by rw [FR.ofNat_eq, double_int hk]
  refine ⟨?_, ?_, ?_, ?_, ?_, ?_⟩
  · exact congrArg (Qty.mk · _) (n 50 (by norm_num))
  · exact congrArg (Qty.mk · _) (n 1200 (by norm_num))
  · refine congrArg (Qty.mk · _) ?_
    simp only [FR.dec_eq]
    rw [n 3 (by norm_num), FR.fin_div (by norm_num)]
    have e : ((374 : ℕ) : ℝ) / 10 ^ 2 = 3.74 := by norm_num
    rw [e]; rfl
  · refine congrArg (Qty.mk · _) ?_
    simp only [FR.dec_eq]
    have e : ((0 : ℕ) : ℝ) / 10 ^ 1 = ((0 : ℕ) : ℝ) := by norm_num
    rw [e, double_int (by norm_num)]; norm_num
  · refine congrArg (Qty.mk · _) ?_
    simp only [FR.dec_eq]
    have e : ((10 : ℕ) : ℝ) / 10 ^ 1 = ((1 : ℕ) : ℝ) := by norm_num
    rw [e, double_int (by norm_num)]; norm_num
  · refine congrArg (Qty.mk · _) ?_
    simp only [FR.dec_eq]
    have e : ((8 : ℕ) : ℝ) / 10 ^ 1 = 0.8 := by norm_num
    rw [e]; rfl

/-- **C103** (`TwoLayerModel()` in double precision).  The timescales are computed to within a millisecond (the unit of their
magnitudes, J/W, is one second), the coefficients to within 10⁻¹⁰ K/(W/m²), of the exact parameters of the object. -/
theorem C103_default {m : TLM U0 (FR double)} (hm : TLM.init U0.regD (TLM.defaultArgs U0.regD) = .ok m) {C D l h : ℝ}
    (hC : C = TLPar.defaultD.C) (hD : D = TLPar.defaultD.D) (hl : l = TLPar.defaultD.l) (hh : h = TLPar.defaultD.h) :
    ∃ t d1' d2' q1' q2', m.getImpulseResponseParameters U0.regD = .ok t ∧
      t.d1.mag = FR.fin d1' ∧ t.d2.mag = FR.fin d2' ∧ t.q1.mag = FR.fin q1' ∧ t.q2.mag = FR.fin q2' ∧
      |d1' - Geo.tau1 C D l 1 h| ≤ 10⁻¹ ^ 3 ∧ |d2' - Geo.tau2 C D l 1 h| ≤ 10⁻¹ ^ 3 ∧
      |q1' - Geo.q1 C D l 1 h| ≤ 10⁻¹ ^ 10 ∧ |q2' - Geo.q2 C D l 1 h| ≤ 10⁻¹ ^ 10 := by
  have eC : C = 50 * 4181 * 1000 := by rw [hC]; norm_num [TLPar.defaultD]
  have eD : D = 1200 * 4181 * 1000 := by rw [hD]; norm_num [TLPar.defaultD]
  have eC' : C = 209050000 := by rw [hC]; rfl
  have eD' : D = 5017200000 := by rw [hD]; rfl
  have bl : Btw l 1.24 1.25 := by rw [hl]; exact ⟨by norm_num, TLPar.defaultD_l.1, TLPar.defaultD_l.2⟩
  have bh : Btw h 0.79 0.81 := by rw [hh]; exact ⟨by norm_num, TLPar.defaultD_h.1, TLPar.defaultD_h.2⟩
  obtain ⟨g1, g2, g3⟩ := defaultD_geo bl bh
  rw [← eC', ← eD'] at g1 g2 g3
  have hp : m.Plain U0.regD 50 1200 l 1 h := by rw [hl, hh]; exact TLM.default_plain hm
  have hC0 : 0 < C := by rw [eC']; norm_num
  have hD0 : 0 < D := by rw [eD']; norm_num
  obtain ⟨-, -, k⟩ := Geo.cond_sq hC0 hD0 bl.pos one_pos bh.pos
  have τ := Geo.tau2_pos hC0 hD0 bl.pos one_pos bh.pos
  obtain ⟨t, d1', d2', q1', q2', a, e1, e2, e3, e4, -, f1, f2, f3, f4⟩ :=
    C103_impulse_response_parameters (double_accurate (10 ^ 61)) (by positivity) hp (by norm_num) (by norm_num) bl.pos one_pos bh.pos
      eC eD rfl (by norm_num at g2 ⊢; linarith) g1
  have b1 : 180 * (2⁻¹ : ℝ) ^ 53 * Geo.cond C D l 1 h * Geo.tau2 C D l 1 h ≤ 10⁻¹ ^ 3 := by
    have : Geo.cond C D l 1 h ≤ 1.1 := by nlinarith
    calc _ ≤ 180 * (2⁻¹ : ℝ) ^ 53 * 1.1 * (1.1 * 10 ^ 10) := by gcongr
      _ ≤ _ := by norm_num
  have b2 : 2000 * (2⁻¹ : ℝ) ^ 53 * Geo.cond C D l 1 h ^ 2 * (Geo.tau2 C D l 1 h / C) ≤ 10⁻¹ ^ 10 := by
    calc _ ≤ 2000 * (2⁻¹ : ℝ) ^ 53 * 1.1 * (1.1 * 10 ^ 10 / C) := by gcongr
      _ ≤ _ := by rw [eC']; norm_num
  exact ⟨t, d1', d2', q1', q2', a, by rw [e1], by rw [e2], by rw [e3], by rw [e4], f1.trans b1, f2.trans b1, f3.trans b2, f4.trans b2⟩

/-- the hypotheses of `C103_impulse_response_parameters` are met by `TwoLayerModel()` -/
example : ∃ m, TLM.init U0.regD (TLM.defaultArgs U0.regD) = .ok m := ⟨_, U0.regD_default.choose_spec.1⟩

end TwoLayer
