import Verif.Proofs.RoundingIR

/-! # Rounding errors of `get_two_layer_parameters` -/

set_option linter.unusedSimpArgs false
set_option linter.unusedSectionVars false

namespace TwoLayer

namespace Ap
variable {r : Rounding} {u μ Ω : ℝ} {k l : ℕ} {X Y B x y : ℝ}

/-- an approximation of a positive number with a small relative error is positive -/
theorem pos (h : Ap u k X X x) (hX : 0 < X) (hk : (1 + u) ^ k ≤ 3 / 2) : 0 < x := by
  have := (abs_le.mp h.2).1
  nlinarith

/-- division by a positive number known up to a small relative error -/
theorem divA (hu : 0 ≤ u) (h : Ap u k X B x) (h' : Ap u l Y Y y) (hY : 0 < Y) (hl : (1 + u) ^ l ≤ 3 / 2) :
    Ap u (k + 2 * l) (X / Y) (B / Y) (x / y) := by
  have hy := h'.pos hY hl
  have hi : Ap u (2 * l) (1 / Y) (1 / Y) (1 / y) := by
    refine ⟨le_of_eq (abs_of_pos (by positivity)), ?_⟩
    set z := (1 + u) ^ l with hz
    have hz1 : 1 ≤ z := one_le_pow₀ (by linarith)
    have e1 : (1 + u) ^ (2 * l) = z ^ 2 := by rw [mul_comm, pow_mul]
    have e2 : 1 / y - 1 / Y = (Y - y) / (y * Y) := by field_simp
    have h2 := h'.2
    rw [abs_sub_comm] at h2
    have hlow : (2 - z) * Y ≤ y := by nlinarith [(abs_le.mp h'.2).1]
    rw [e1, e2, abs_div, abs_of_pos (mul_pos hy hY), div_le_iff₀ (mul_pos hy hY)]
    calc |Y - y| ≤ (z - 1) * Y := h2
      _ ≤ (z ^ 2 - 1) * ((2 - z) * Y) := by
          have : (z - 1) * Y * (1 - (z + 1) * (2 - z)) ≤ 0 := by
            have a : 0 ≤ (z - 1) * Y := mul_nonneg (by linarith) hY.le
            have b : 1 - (z + 1) * (2 - z) ≤ 0 := by nlinarith
            nlinarith
          nlinarith
      _ ≤ (z ^ 2 - 1) * y := by
          apply mul_le_mul_of_nonneg_left hlow
          nlinarith
      _ = _ := by field_simp
  have := h.mul hu hi
  simpa only [mul_one_div] using this

end Ap

theorem gammas {u : ℝ} (hu : 0 ≤ u) (hu1 : u ≤ 1 / 100) :
    (1 + u) ^ 4 - 1 ≤ 5 * u ∧ (1 + u) ^ 13 - 1 ≤ 16 * u ∧ (1 + u) ^ 21 - 1 ≤ 24 * u ∧ (1 + u) ^ 29 - 1 ≤ 35 * u := by
  have h1 : (1 : ℝ) ≤ (1 + u) ^ 7 := one_le_pow₀ (by linarith)
  have h2 : u ^ 2 ≤ 1 / 10000 := by nlinarith
  have h3 : u ^ 3 ≤ u ^ 2 := pow_le_pow_of_le_one hu (by linarith) (by norm_num)
  have h4 : u ^ 4 ≤ u ^ 2 := pow_le_pow_of_le_one hu (by linarith) (by norm_num)
  have h5 : u ^ 5 ≤ u ^ 2 := pow_le_pow_of_le_one hu (by linarith) (by norm_num)
  have h6 : u ^ 6 ≤ u ^ 2 := pow_le_pow_of_le_one hu (by linarith) (by norm_num)
  have g7 : (1 + u) ^ 7 ≤ 1 + 7.3 * u := by
    have : (1 + u) ^ 7 - 1 = u * (7 + 21 * u + 35 * u ^ 2 + 35 * u ^ 3 + 21 * u ^ 4 + 7 * u ^ 5 + u ^ 6) := by ring
    have : (1 + u) ^ 7 - 1 ≤ u * 7.3 := by
      rw [this]; exact mul_le_mul_of_nonneg_left (by linarith) hu
    linarith
  have g14 : (1 + u) ^ 14 ≤ 1 + 15.2 * u := by
    calc (1 + u) ^ 14 = (1 + u) ^ 7 * (1 + u) ^ 7 := by ring
      _ ≤ (1 + 7.3 * u) * (1 + 7.3 * u) := by gcongr
      _ ≤ _ := by nlinarith
  refine ⟨?_, ?_, ?_, ?_⟩
  · have : (1 + u) ^ 4 - 1 = u * (4 + 6 * u + 4 * u ^ 2 + u ^ 3) := by ring
    rw [this, mul_comm 5 u]; exact mul_le_mul_of_nonneg_left (by linarith) hu
  · have : (1 + u) ^ 13 ≤ (1 + u) ^ 14 := pow_le_pow_right₀ (by linarith) (by norm_num)
    linarith
  · have : (1 + u) ^ 21 ≤ (1 + 15.2 * u) * (1 + 7.3 * u) := by
      calc (1 + u) ^ 21 = (1 + u) ^ 14 * (1 + u) ^ 7 := by ring
        _ ≤ _ := by gcongr
    nlinarith
  · have g28 : (1 + u) ^ 28 ≤ 1 + 32.8 * u := by
      calc (1 + u) ^ 28 = (1 + u) ^ 14 * (1 + u) ^ 14 := by ring
        _ ≤ (1 + 15.2 * u) * (1 + 15.2 * u) := by gcongr
        _ ≤ _ := by nlinarith
    calc (1 + u) ^ 29 - 1 = (1 + u) ^ 28 * (1 + u) - 1 := by ring
      _ ≤ (1 + 32.8 * u) * (1 + u) - 1 := by gcongr
      _ ≤ _ := by nlinarith

theorem pow29 {u : ℝ} (hu : 0 ≤ u) (hu1 : u ≤ 1 / 100) {k : ℕ} (hk : k ≤ 29) : (1 + u) ^ k ≤ 3 / 2 := by
  have h1 : (1 + u) ^ k ≤ (1 + u) ^ 29 := pow_le_pow_right₀ (by linarith) hk
  have := (gammas hu hu1).2.2.2
  linarith

section
variable {N : Type} [Fintype N] [DecidableEq N] {r : Rounding} {R : Registry N (FR r)} {u μ Ω : ℝ}

set_option maxHeartbeats 1000000 in
/-- `get_two_layer_parameters` in rounded arithmetic -/
theorem IRM.fconv_err (hr : r.Accurate u μ Ω) (hu : 0 ≤ u) (hu1 : u ≤ 1 / 100) {m : IRM N (FR r)} {q1 q2 d1 d2 e : ℝ}
    (hm : m.q1 = ⟨FR.fin q1, R.cwm2⟩ ∧ m.q2 = ⟨FR.fin q2, R.cwm2⟩ ∧ m.d1 = ⟨FR.fin d1, R.yr⟩ ∧ m.d2 = ⟨FR.fin d2, R.yr⟩ ∧
      m.efficacy = ⟨FR.fin e, R.one⟩)
    (hq1 : 0 < q1) (hq2 : 0 < q2) (hd1 : 0 < d1) (hd2 : 0 < d2) (he : 0 < e)
    {l C X den : ℝ} (hl : l = 1 / (q1 + q2)) (hC : C = d1 * d2 / (q1 * d2 + q2 * d1))
    (hX : X = l * (d1 * (l * q1) + d2 * (l * q2))) (hden : den = d1 * (l * q2) + d2 * (l * q1))
    (hin : ∀ x ∈ [1, 1000, 4181, 1000 * 4181, q1 + q2, l, q1 * d2, q2 * d1, q1 * d2 + q2 * d1, d1 * d2, C, l * q1, l * q2, d1 * (l * q1),
      d2 * (l * q2), d1 * (l * q1) + d2 * (l * q2), X, d1 * (l * q2), d2 * (l * q1), den, X + C, (X + C) / e, (X + C) / e / den,
      C / (1000 * 4181), (X + C) / e / (1000 * 4181)], μ ≤ x ∧ 2 * x ≤ Ω) :
    ∃ l' du' dl' h', m.getTwoLayerParameters R = .ok
        { lambda0 := ⟨FR.fin l', -R.cwm2⟩
          du := ⟨FR.fin du', -R.cwm2 + R.yr - (R.densityWater.unit + R.heatCapacityWater.unit)⟩
          dl := ⟨FR.fin dl', -R.cwm2 + R.yr - R.one - (R.densityWater.unit + R.heatCapacityWater.unit)⟩
          eta := ⟨FR.fin h', -R.cwm2 + R.yr - R.one - R.yr⟩
          efficacy := ⟨FR.fin e, R.one⟩ } ∧
      Ap u 4 l l l' ∧ Ap u 13 (C / (1000 * 4181)) (C / (1000 * 4181)) du' ∧
      Ap u 21 ((X - C) / e / (1000 * 4181)) ((X + C) / e / (1000 * 4181)) dl' ∧
      Ap u 29 ((X - C) / e / den) ((X + C) / e / den) h' := by
  have hz := hr.zero
  obtain ⟨f1, f2, f3, f4, f5⟩ := hm
  simp only [List.forall_mem_cons, List.not_mem_nil, IsEmpty.forall_iff, forall_const, and_true] at hin
  obtain ⟨⟨m1, o1⟩, ⟨m2, o2⟩, ⟨m3, o3⟩, ⟨m4, o4⟩, ⟨m5, o5⟩, ⟨m6, o6⟩, ⟨m7, o7⟩, ⟨m8, o8⟩, ⟨m9, o9⟩, ⟨m10, o10⟩, ⟨m11, o11⟩,
    ⟨m12, o12⟩, ⟨m13, o13⟩, ⟨m14, o14⟩, ⟨m15, o15⟩, ⟨m16, o16⟩, ⟨m17, o17⟩, ⟨m18, o18⟩, ⟨m19, o19⟩, ⟨m20, o20⟩, ⟨m21, o21⟩,
    ⟨m22, o22⟩, ⟨m23, o23⟩, ⟨m24, o24⟩, ⟨m25, o25⟩⟩ := hin
  have hl0 : 0 < l := by rw [hl]; positivity
  have hC0 : 0 < C := by rw [hC]; positivity
  have hX0 : 0 < X := by rw [hX]; positivity
  have hden0 : 0 < den := by rw [hden]; positivity
  have ex : ∀ {x : ℝ}, 0 < x → Ap u 0 x x x := fun h => Ap.exact (abs_of_pos h).le
  have rd : ∀ {k : ℕ} {X B x : ℝ}, Ap u k X B x → μ ≤ B → 2 * B ≤ Ω → k ≤ 28 → Ap u (k + 1) X B (r.fl x) := by
    intro k X B x h h1 h2 hk
    refine h.round hr hu h1 (le_trans ?_ h2)
    have := pow29 hu hu1 (k := k) (by omega)
    exact mul_le_mul_of_nonneg_right (by linarith) h.B_nonneg
  have sm : ∀ {k : ℕ}, k ≤ 29 → (1 + u) ^ k ≤ 3 / 2 := fun h => pow29 hu hu1 h
  -- lambda0
  have A1 := rd (ex one_pos) m1 o1 (by norm_num)
  have As := rd (ex (by positivity : 0 < q1 + q2)) m5 o5 (by norm_num)
  have Al := rd (A1.divA hu As (by positivity) (sm (by norm_num))) (by rwa [← hl]) (by rwa [← hl]) (by norm_num)
  rw [← hl] at Al
  -- C
  have c1 := rd (ex (mul_pos hq1 hd2)) m7 o7 (by norm_num)
  have c2 := rd (ex (mul_pos hq2 hd1)) m8 o8 (by norm_num)
  have c3 := rd (c1.add c2) m9 o9 (by norm_num)
  have c4 := rd (ex (mul_pos hd1 hd2)) m10 o10 (by norm_num)
  have c5 := rd (c4.divA hu c3 (by positivity) (sm (by norm_num))) (by rwa [← hC]) (by rwa [← hC]) (by norm_num)
  rw [← hC] at c5
  -- a1, a2
  have a1 := rd (Al.mul hu (ex hq1)) m12 o12 (by norm_num)
  have a2 := rd (Al.mul hu (ex hq2)) m13 o13 (by norm_num)
  have x1 := rd ((ex hd1).mul hu a1) m14 o14 (by norm_num)
  have x2 := rd ((ex hd2).mul hu a2) m15 o15 (by norm_num)
  have x3 := rd (x1.add x2) m16 o16 (by norm_num)
  have x4 := rd (Al.mul hu x3) (by rwa [← hX]) (by rwa [← hX]) (by norm_num)
  rw [← hX] at x4
  have x5 := rd (x4.sub (c5.mono hu (by norm_num) le_rfl)) m21 o21 (by norm_num)
  have x6 := rd (x5.div he) m22 o22 (by norm_num)
  have y1 := rd ((ex hd1).mul hu a2) m18 o18 (by norm_num)
  have y2 := rd ((ex hd2).mul hu a1) m19 o19 (by norm_num)
  have y3 := rd (y1.add y2) (by rwa [← hden]) (by rwa [← hden]) (by norm_num)
  rw [← hden] at y3
  have z1 := rd (x6.divA hu y3 hden0 (sm (by norm_num))) m23 o23 (by norm_num)
  have w1 := rd (ex (by norm_num : (0 : ℝ) < 1000)) m2 o2 (by norm_num)
  have w2 := rd (ex (by norm_num : (0 : ℝ) < 4181)) m3 o3 (by norm_num)
  have w3 := rd (w1.mul hu w2) m4 o4 (by norm_num)
  have z2 := rd (c5.divA hu w3 (by norm_num) (sm (by norm_num))) m24 o24 (by norm_num)
  have z3 := rd (x6.divA hu w3 (by norm_num) (sm (by norm_num))) m25 o25 (by norm_num)
  have n1 := (As.pos (by positivity) (sm (by norm_num))).ne'
  have n2 := (c3.pos (by positivity) (sm (by norm_num))).ne'
  have n3 := (y3.pos hden0 (sm (by norm_num))).ne'
  have n4 := (w3.pos (by norm_num) (sm (by norm_num))).ne'
  have n5 := he.ne'
  have u2 : R.yr + (-R.cwm2 + R.cwm2) = R.yr := by rw [neg_add_cancel, add_zero]
  have u3 : R.yr + R.yr - (R.cwm2 + R.yr) = -R.cwm2 + R.yr := by abel
  refine ⟨_, _, _, _, ?_, Al.mono hu (by norm_num) le_rfl, z2.mono hu (by norm_num) le_rfl, z3.mono hu (by norm_num) le_rfl,
    z1.mono hu (by norm_num) le_rfl⟩
  simp only [IRM.getTwoLayerParameters, f1, f2, f3, f4, f5, Qty.add, Qty.ndiv, Qty.mul, Qty.div, Qty.sub,
      Qty.magIn, true_or, if_true, bind, Except.bind, pure, Except.pure, FR.fin_add, FR.fin_mul, FR.fin_sub, FR.ofNat_eq,
      Nat.cast_one, FR.pyDiv_fin hz n1, FR.pyDiv_fin hz n2, FR.pyDiv_fin hz n3, FR.pyDiv_fin hz n5, Registry.densityWater,
      Registry.heatCapacityWater, Nat.cast_ofNat, FR.pyDiv_fin hz n4, u2, u3]
end
end TwoLayer
