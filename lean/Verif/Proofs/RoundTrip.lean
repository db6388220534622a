import Verif.Proofs.RoundingGeo
import Verif.Proofs.Init
import Verif.Spec.Convert

/-! # Converting back and forth in rounded arithmetic -/

set_option linter.unusedSimpArgs false
set_option linter.unusedSectionVars false

namespace TwoLayer

theorem gammas' {u : ℝ} (hu : 0 ≤ u) (hu1 : u ≤ 1 / 200) :
    (1 + u) ^ 6 - 1 ≤ 7 * u ∧ (1 + u) ^ 19 - 1 ≤ 21 * u ∧ (1 + u) ^ 27 - 1 ≤ 31 * u ∧ (1 + u) ^ 43 - 1 ≤ 53 * u := by
  have p6 := pow_small hu 6 (by norm_num; linarith)
  have p19 := pow_small hu 19 (by norm_num; linarith)
  have p27 := pow_small hu 27 (by norm_num; linarith)
  have p43 := pow_small hu 43 (by norm_num; linarith)
  have h : u ^ 2 ≤ 1 / 200 * u := by rw [sq]; exact mul_le_mul_of_nonneg_right hu1 hu
  norm_num [mul_pow] at p6 p19 p27 p43
  refine ⟨?_, ?_, ?_, ?_⟩ <;> linarith

theorem pow43 {u : ℝ} (hu : 0 ≤ u) (hu1 : u ≤ 1 / 200) {k : ℕ} (hk : k ≤ 43) : (1 + u) ^ k ≤ 3 / 2 := by
  have h1 : (1 + u) ^ k ≤ (1 + u) ^ 43 := pow_le_pow_right₀ (by linarith) hk
  have := (gammas' hu hu1).2.2.2
  linarith

section
variable {N : Type} [Fintype N] [DecidableEq N] {r : Rounding} {R : Registry N (FR r)} {u μ Ω : ℝ}

set_option maxHeartbeats 1000000 in
/-- `get_two_layer_parameters` of parameters known up to a relative error `u` -/
theorem IRM.fconv_err' (hr : r.Accurate u μ Ω) (hu : 0 ≤ u) (hu1 : u ≤ 1 / 200) {m : IRM N (FR r)}
    {q1 q2 d1 d2 e q1' q2' d1' d2' : ℝ} {a b : Units N}
    (hm : m.q1 = ⟨FR.fin q1', a⟩ ∧ m.q2 = ⟨FR.fin q2', a⟩ ∧ m.d1 = ⟨FR.fin d1', b⟩ ∧ m.d2 = ⟨FR.fin d2', b⟩ ∧
      m.efficacy = ⟨FR.fin e, R.one⟩)
    (Aq1 : Ap u 1 q1 q1 q1') (Aq2 : Ap u 1 q2 q2 q2') (Ad1 : Ap u 1 d1 d1 d1') (Ad2 : Ap u 1 d2 d2 d2')
    (hq1 : 0 < q1) (hq2 : 0 < q2) (hd1 : 0 < d1) (hd2 : 0 < d2) (he : 0 < e)
    {l C X den : ℝ} (hl : l = 1 / (q1 + q2)) (hC : C = d1 * d2 / (q1 * d2 + q2 * d1))
    (hX : X = l * (d1 * (l * q1) + d2 * (l * q2))) (hden : den = d1 * (l * q2) + d2 * (l * q1))
    (hin : ∀ x ∈ [1, 1000, 4181, 1000 * 4181, q1 + q2, l, q1 * d2, q2 * d1, q1 * d2 + q2 * d1, d1 * d2, C, l * q1, l * q2, d1 * (l * q1),
      d2 * (l * q2), d1 * (l * q1) + d2 * (l * q2), X, d1 * (l * q2), d2 * (l * q1), den, X + C, (X + C) / e, (X + C) / e / den,
      C / (1000 * 4181), (X + C) / e / (1000 * 4181)], μ ≤ x ∧ 2 * x ≤ Ω) :
    ∃ l' du' dl' h', m.getTwoLayerParameters R = .ok
        { lambda0 := ⟨FR.fin l', -a⟩
          du := ⟨FR.fin du', -a + b - (R.densityWater.unit + R.heatCapacityWater.unit)⟩
          dl := ⟨FR.fin dl', -a + b - R.one - (R.densityWater.unit + R.heatCapacityWater.unit)⟩
          eta := ⟨FR.fin h', -a + b - R.one - b⟩
          efficacy := ⟨FR.fin e, R.one⟩ } ∧
      Ap u 6 l l l' ∧ Ap u 19 (C / (1000 * 4181)) (C / (1000 * 4181)) du' ∧
      Ap u 27 ((X - C) / e / (1000 * 4181)) ((X + C) / e / (1000 * 4181)) dl' ∧
      Ap u 43 ((X - C) / e / den) ((X + C) / e / den) h' := by
  have hz := hr.zero
  obtain ⟨f1, f2, f3, f4, f5⟩ := hm
  simp only [List.forall_mem_cons, List.not_mem_nil, IsEmpty.forall_iff, forall_const, and_true] at hin
  obtain ⟨⟨m1, o1⟩, ⟨m2, o2⟩, ⟨m3, o3⟩, ⟨m4, o4⟩, ⟨m5, o5⟩, ⟨m6, o6⟩, ⟨m7, o7⟩, ⟨m8, o8⟩, ⟨m9, o9⟩, ⟨m10, o10⟩, ⟨m11, o11⟩,
    ⟨m12, o12⟩, ⟨m13, o13⟩, ⟨m14, o14⟩, ⟨m15, o15⟩, ⟨m16, o16⟩, ⟨m17, o17⟩, ⟨m18, o18⟩, ⟨m19, o19⟩, ⟨m20, o20⟩, ⟨m21, o21⟩,
    ⟨m22, o22⟩, ⟨m23, o23⟩, ⟨m24, o24⟩, ⟨m25, o25⟩⟩ := hin
  have hl0 : 0 < l := by rw [hl]; positivity
  have hC0 : 0 < C := by rw [hC]; positivity
  have hX0 : 0 < X := by rw [hX]; positivity
  have hden0 : 0 < den := by rw [hden]; positivity
  have ex : ∀ {x : ℝ}, 0 < x → Ap u 0 x x x := fun h => Ap.exact (abs_of_pos h).le
  have rd : ∀ {k : ℕ} {X B x : ℝ}, Ap u k X B x → μ ≤ B → 2 * B ≤ Ω → k ≤ 42 → Ap u (k + 1) X B (r.fl x) := by
    intro k X B x h h1 h2 hk
    refine h.round hr hu h1 (le_trans ?_ h2)
    have := pow43 hu hu1 (k := k) (by omega)
    exact mul_le_mul_of_nonneg_right (by linarith) h.B_nonneg
  have sm : ∀ {k : ℕ}, k ≤ 43 → (1 + u) ^ k ≤ 3 / 2 := fun h => pow43 hu hu1 h
  -- lambda0
  have A1 := rd (ex one_pos) m1 o1 (by norm_num)
  have As := rd (Aq1.add Aq2) m5 o5 (by norm_num)
  have Al := rd (A1.divA hu As (by positivity) (sm (by norm_num))) (by rwa [← hl]) (by rwa [← hl]) (by norm_num)
  rw [← hl] at Al
  -- C
  have c1 := rd (Aq1.mul hu Ad2) m7 o7 (by norm_num)
  have c2 := rd (Aq2.mul hu Ad1) m8 o8 (by norm_num)
  have c3 := rd (c1.add c2) m9 o9 (by norm_num)
  have c4 := rd (Ad1.mul hu Ad2) m10 o10 (by norm_num)
  have c5 := rd (c4.divA hu c3 (by positivity) (sm (by norm_num))) (by rwa [← hC]) (by rwa [← hC]) (by norm_num)
  rw [← hC] at c5
  -- a1, a2
  have A1' := rd (Al.mul hu Aq1) m12 o12 (by norm_num)
  have A2' := rd (Al.mul hu Aq2) m13 o13 (by norm_num)
  have x1 := rd (Ad1.mul hu A1') m14 o14 (by norm_num)
  have x2 := rd (Ad2.mul hu A2') m15 o15 (by norm_num)
  have x3 := rd (x1.add x2) m16 o16 (by norm_num)
  have x4 := rd (Al.mul hu x3) (by rwa [← hX]) (by rwa [← hX]) (by norm_num)
  rw [← hX] at x4
  have x5 := rd (x4.sub (c5.mono hu (by norm_num) le_rfl)) m21 o21 (by norm_num)
  have x6 := rd (x5.div he) m22 o22 (by norm_num)
  have y1 := rd (Ad1.mul hu A2') m18 o18 (by norm_num)
  have y2 := rd (Ad2.mul hu A1') m19 o19 (by norm_num)
  have y3 := rd (y1.add y2) (by rwa [← hden]) (by rwa [← hden]) (by norm_num)
  rw [← hden] at y3
  have z1 := rd (x6.divA hu y3 hden0 (sm (by norm_num))) m23 o23 (by norm_num)
  have w1 := rd (ex (by norm_num : (0 : ℝ) < 1000)) m2 o2 (by norm_num)
  have w2 := rd (ex (by norm_num : (0 : ℝ) < 4181)) m3 o3 (by norm_num)
  have w3 := rd (w1.mul hu w2) m4 o4 (by norm_num)
  have z2 := rd (c5.divA hu w3 (by norm_num) (sm (by norm_num))) m24 o24 (by norm_num)
  have z3 := rd (x6.divA hu w3 (by norm_num) (sm (by norm_num))) m25 o25 (by norm_num)
  have n1 := (As.pos (by positivity) (sm (by norm_num))).ne'
  have n2 := (c3.pos (by positivity) (sm (by norm_num))).ne'
  have n3 := (y3.pos hden0 (sm (by norm_num))).ne'
  have n4 := (w3.pos (by norm_num) (sm (by norm_num))).ne'
  have n5 := he.ne'
  have u2 : b + (-a + a) = b := by rw [neg_add_cancel, add_zero]
  have u3 : b + b - (a + b) = -a + b := by abel
  refine ⟨_, _, _, _, ?_, Al.mono hu (by norm_num) le_rfl, z2.mono hu (by norm_num) le_rfl, z3.mono hu (by norm_num) le_rfl,
    z1.mono hu (by norm_num) le_rfl⟩
  simp only [IRM.getTwoLayerParameters, f1, f2, f3, f4, f5, Qty.add, Qty.ndiv, Qty.mul, Qty.div, Qty.sub,
      Qty.magIn, true_or, if_true, bind, Except.bind, pure, Except.pure, FR.fin_add, FR.fin_mul, FR.fin_sub, FR.ofNat_eq,
      Nat.cast_one, FR.pyDiv_fin hz n1, FR.pyDiv_fin hz n2, FR.pyDiv_fin hz n3, FR.pyDiv_fin hz n5, Registry.densityWater,
      Registry.heatCapacityWater, Nat.cast_ofNat, FR.pyDiv_fin hz n4, u2, u3]
end
end TwoLayer
