import Verif.Proofs.Ieee
import Verif.Proofs.RoundingIR
import Verif.Proofs.ExactIR

/-! # No overflow in runs within the range of binary64 -/

set_option linter.unusedSimpArgs false
set_option linter.unusedSectionVars false

namespace TwoLayer
namespace F64
variable {py : Bool}

theorem near64_lt {x : ℝ} (h : |x| ≤ 2 ^ 1023) : |near64 x| < 2 ^ 1024 := by
  have h1 := round_err x
  have h2 : max |x| ((2⁻¹ : ℝ) ^ 1022) ≤ 2 ^ 1023 := max_le h ((pow_le_one₀ (by norm_num) (by norm_num)).trans (one_le_pow₀ (by norm_num)))
  have h3 : |near64 x| ≤ |near64 x - x| + |x| := by
    calc |near64 x| = |(near64 x - x) + x| := by congr 1; ring
      _ ≤ _ := abs_add_le _ _
  have h4 : (2⁻¹ : ℝ) ^ 53 * max |x| (2⁻¹ ^ 1022) ≤ 1 / 2 * 2 ^ 1023 :=
    mul_le_mul (by norm_num) h2 (by positivity) (by norm_num)
  have h5 : (2 : ℝ) ^ 1024 = 2 * 2 ^ 1023 := by rw [← pow_succ']
  have h6 : (0 : ℝ) < 2 ^ 1023 := by positivity
  rw [h5]
  have h7 := h1.trans h4
  clear h1 h2 h4 h5
  generalize (2 : ℝ) ^ 1023 = Ω at *
  linarith

theorem value_zero (s : Bool) : (zero s : F64 py).value = some 0 := by
  unfold zero; split <;> rfl

theorem value_round {s : Bool} {x : ℝ} (h : |x| ≤ 2 ^ 1023) : (round s x : F64 py).value = some (near64 x) := by
  unfold round
  by_cases h0 : x = 0
  · rw [if_pos h0, value_zero, h0, near64_zero]
  rw [if_neg h0]
  by_cases h1 : near64 x = 0
  · rw [if_pos h1, value_zero, h1]
  rw [if_neg h1, if_neg (not_le.mpr (near64_lt h))]
  rfl

theorem value_neg {x : F64 py} {a : ℝ} (hx : x.value = some a) : (-x).value = some (-a) := by
  show (neg x).value = _
  cases x with
  | nan => cases hx
  | inf s => cases hx
  | negZero => cases hx; simp [neg, value]
  | num x =>
    have hxa : x = a := Option.some.inj hx
    subst hxa
    unfold neg
    by_cases h : x = 0
    · simp [h, value]
    · simp [h, value]

theorem value_add {x y : F64 py} {a b : ℝ} (hx : x.value = some a) (hy : y.value = some b) (h : |a + b| ≤ 2 ^ 1023) :
    (x + y).value = some (near64 (a + b)) := by
  show (add x y).value = _
  cases x <;> cases hx <;> cases y <;> cases hy <;> simp only [add] <;>
    first
      | exact value_round h
      | (rw [add_zero, near64_zero]; rfl)

theorem value_sub {x y : F64 py} {a b : ℝ} (hx : x.value = some a) (hy : y.value = some b) (h : |a - b| ≤ 2 ^ 1023) :
    (x - y).value = some (near64 (a - b)) := by
  have := value_add hx (value_neg hy) (by rwa [← sub_eq_add_neg])
  rwa [← sub_eq_add_neg] at this

theorem value_mul {x y : F64 py} {a b : ℝ} (hx : x.value = some a) (hy : y.value = some b) (h : |a * b| ≤ 2 ^ 1023) :
    (x * y).value = some (near64 (a * b)) := by
  show (mul x y).value = _
  cases x <;> cases hx <;> cases y <;> cases hy <;> simp only [mul, value, Option.getD_some] <;> exact value_round h

theorem value_div {x y : F64 py} {a b : ℝ} (hx : x.value = some a) (hy : y.value = some b) (hb : b ≠ 0)
    (h : |a / b| ≤ 2 ^ 1023) : (x / y).value = some (near64 (a / b)) := by
  show (div x y).value = _
  cases x <;> cases hx <;> cases y <;> cases hy <;>
    simp only [div, value, Option.getD_some, Option.some.injEq, hb, if_false] <;>
    first
      | exact value_round h
      | exact absurd rfl hb

theorem value_ofNat {n : ℕ} (h : (n : ℝ) ≤ 2 ^ 1023) : (Arith.ofNat n : F64 py).value = some (near64 n) :=
  value_round (by rwa [abs_of_nonneg (Nat.cast_nonneg n)])

theorem value_zero_lit : (Arith.dec 0 1 : F64 py).value = some 0 := by
  show (round false (((0 : ℕ) : ℝ) / 10 ^ 1)).value = _
  rw [value_round (by simp)]
  simp [near64_zero]

theorem value_exp {x : F64 py} {a : ℝ} (hx : x.value = some a) (ha : a ≤ 0) :
    (Arith.exp x : F64 py).value = some (near64 (Real.exp a)) := by
  have h1 : |Real.exp a| ≤ 2 ^ 1023 := by
    rw [abs_of_pos (Real.exp_pos _)]
    exact (Real.exp_le_one_iff.mpr ha).trans (one_le_pow₀ (by norm_num))
  cases x with
  | nan => cases hx
  | inf s => cases hx
  | negZero =>
    cases hx
    show some 1 = _
    rw [Real.exp_zero, near64_of_isDouble ⟨1, 0, by norm_num, by norm_num, by simp⟩]
  | num x => cases hx; exact value_round h1
end F64

theorem range64 (S : ℝ → ℝ → Prop) (h : S (2⁻¹ ^ 1022) (2 ^ 1023)) : ∃ u μ Ω, double.Accurate u μ Ω ∧ 0 ≤ u ∧ u ≤ 1 / 100 ∧
    (∀ x : ℝ, x ≤ Ω → x ≤ 2 ^ 1023) ∧ S μ Ω :=
  ⟨2⁻¹ ^ 53, 2⁻¹ ^ 1022, 2 ^ 1023, double_accurate _, by positivity, by norm_num, fun _ h => h, h⟩

namespace TLPar
variable {py : Bool} {p : TLPar} {K : ℝ}

theorem fu64 (hp : p.Pos) (hres : p.Resolved) (ha : p.a = 0) (hin : p.InRange K (2⁻¹ ^ 1022) (2 ^ 1023)) (hK : 0 ≤ K)
    {F T TD : ℝ} (hF : |F| ≤ p.l * K) (hT : |T| ≤ 2 * K) (hTD : |TD| ≤ 2 * K)
    {dt t td f l a e h c : F64 py} (vdt : dt.value = some p.dt) (vt : t.value = some T) (vtd : td.value = some TD)
    (vf : f.value = some F) (vl : l.value = some p.l) (va : a.value = some p.a) (ve : e.value = some p.e)
    (vh : h.value = some p.h) (vc : c.value = some p.C) :
    (TLM.calcNextTempUpper dt t td f l a e h c).value = some (p.fu double F T TD) := by
  have hC := hp.C; have hl := hp.l; have he := hp.e; have hh := hp.h; have hdt := hp.dt
  have heh : 0 < p.e * p.h := mul_pos he hh
  obtain ⟨u, μ, Ω, hr, hu, hu1, hΩ, hin⟩ := range64 (fun μ Ω => p.InRange K μ Ω) hin
  simp only [TLPar.InRange, List.forall_mem_cons, List.not_mem_nil, IsEmpty.forall_iff, forall_const, and_true] at hin
  obtain ⟨⟨m1, o1⟩, ⟨m2, o2⟩, ⟨m3, o3⟩, ⟨m4, o4⟩, ⟨m5, o5⟩, ⟨m6, o6⟩, ⟨m7, o7⟩, -, -, -, -, -, -, -, ⟨m15, o15⟩⟩ := hin
  have p2 : ∀ {k : ℕ} {B : ℝ}, k ≤ 7 → 0 ≤ B → 2 * B ≤ Ω → (1 + u) ^ k * B ≤ Ω := fun hk hB hΩ =>
    (mul_le_mul_of_nonneg_right (pow_le_two hu hu1 hk) hB).trans hΩ
  have n1 : 0 ≤ p.l * K := by positivity
  have n2 : 0 ≤ p.e * p.h * K := by positivity
  have z : double.fl 0 = 0 := near64_zero
  have w0 : (a * t).value = some 0 := by
    have := F64.value_mul va vt (by rw [ha, zero_mul, abs_zero]; positivity)
    rwa [ha, zero_mul, near64_zero] at this
  -- λ
  have x1 : Ap u 0 p.l p.l p.l := Ap.exact (le_of_eq (abs_of_pos hl))
  have b1 := p2 (k := 0) (by norm_num) hl.le (by linarith)
  have w1 : (l - a * t).value = some (double.fl p.l) := by
    have := F64.value_sub vl w0 (by rw [sub_zero]; exact hΩ _ (x1.size.trans b1))
    rwa [sub_zero] at this
  have a1 := x1.round hr hu m1 b1
  have xT : Ap u 0 T (2 * K) T := Ap.exact hT
  have xTD : Ap u 0 TD (2 * K) TD := Ap.exact hTD
  have xF : Ap u 0 F (p.l * K) F := Ap.exact hF
  have x2 := a1.mul hu xT
  have b2 := p2 (k := 0 + 1 + 0) (B := p.l * (2 * K)) (by norm_num) (by positivity) (by linarith)
  have w2 : ((l - a * t) * t).value = some (double.fl (double.fl p.l * T)) :=
    F64.value_mul w1 vt (hΩ _ (x2.size.trans b2))
  have a2 := x2.round hr hu (by linarith) b2
  have x3 := (xF.mono hu (by norm_num : 0 ≤ 0 + 1 + 0 + 1) le_rfl).sub a2
  have b3 := p2 (k := 0 + 1 + 0 + 1) (B := p.l * K + p.l * (2 * K)) (by norm_num) (by positivity) (by linarith)
  have w3 : (f - (l - a * t) * t).value = some (double.fl (F - double.fl (double.fl p.l * T))) :=
    F64.value_sub vf w2 (hΩ _ (x3.size.trans b3))
  have a3 := x3.round hr hu (by linarith) b3
  have y1 : Ap u 0 (p.e * p.h) (p.e * p.h) (p.e * p.h) := Ap.exact (le_of_eq (abs_of_pos heh))
  have c1 := p2 (k := 0) (by norm_num) heh.le (by linarith)
  have v1 : (e * h).value = some (double.fl (p.e * p.h)) := F64.value_mul ve vh (hΩ _ (y1.size.trans c1))
  have d1 := y1.round hr hu m3 c1
  have y2 := xT.sub xTD
  have c2 := p2 (k := 0) (B := 2 * K + 2 * K) (by norm_num) (by positivity) (by linarith)
  have v2 : (t - td).value = some (double.fl (T - TD)) := F64.value_sub vt vtd (hΩ _ (y2.size.trans c2))
  have d2 := y2.round hr hu (by linarith) c2
  have y3 := d1.mul hu d2
  have c3 := p2 (k := 0 + 1 + (0 + 1)) (B := p.e * p.h * (2 * K + 2 * K)) (by norm_num) (by positivity) (by linarith)
  have v3 : (e * h * (t - td)).value = some (double.fl (double.fl (p.e * p.h) * double.fl (T - TD))) :=
    F64.value_mul v1 v2 (hΩ _ (y3.size.trans c3))
  have d3 := y3.round hr hu (by linarith) c3
  set H := p.l * K + p.l * (2 * K) + p.e * p.h * (2 * K + 2 * K) with hH
  have hH' : H = 3 * (p.l * K) + 4 * (p.e * p.h * K) := by rw [hH]; ring
  have hH0 : 0 ≤ H := by rw [hH']; positivity
  have x4 := a3.sub d3
  rw [← hH] at x4
  have b4 := p2 (k := 0 + 1 + 0 + 1 + 1) (B := H) (by norm_num) (by positivity) (by linarith)
  have w4 := F64.value_sub w3 v3 (hΩ _ (x4.size.trans b4))
  have a4 := x4.round hr hu (by linarith) b4
  have s1 : H / p.C = 3 * (p.l * K / p.C) + 4 * (p.e * p.h * K / p.C) := by rw [hH']; ring
  have s2 : (p.l + p.e * p.h) * K / p.C = p.l * K / p.C + p.e * p.h * K / p.C := by ring
  have t1 : 0 ≤ p.l * K / p.C := by positivity
  have t2 : 0 ≤ p.e * p.h * K / p.C := by positivity
  have x5 := a4.div hC
  have b5 := p2 (k := 0 + 1 + 0 + 1 + 1 + 1) (B := H / p.C) (by norm_num) (by positivity) (by rw [s1]; linarith)
  have w5 := F64.value_div w4 vc hC.ne' (hΩ _ (x5.size.trans b5))
  have a5 := x5.round hr hu (by rw [s1]; linarith) b5
  have s3 : p.dt * (H / p.C) = 3 * (p.dt * (p.l * K) / p.C) + 4 * (p.dt * (p.e * p.h * K) / p.C) := by rw [s1]; ring
  have t3 : 0 ≤ p.dt * (p.l * K) / p.C := by positivity
  have t4 : 0 ≤ p.dt * (p.e * p.h * K) / p.C := by positivity
  have s4 : p.dt * (p.l * K) / p.C + p.dt * (p.e * p.h * K) / p.C ≤ K := by
    rw [← add_div, div_le_iff₀ hC]
    calc p.dt * (p.l * K) + p.dt * (p.e * p.h * K) = p.dt * (p.l + p.e * p.h) * K := by ring
      _ ≤ p.C * K := mul_le_mul_of_nonneg_right hres.upper hK
      _ = _ := by ring
  have s5 : p.dt * (H / p.C) ≤ 4 * K := by rw [s3]; linarith
  have x6 := a5.smul hdt.le
  have b6 := p2 (k := 0 + 1 + 0 + 1 + 1 + 1 + 1) (B := p.dt * (H / p.C)) (by norm_num) (by positivity) (by linarith)
  have w6 := F64.value_mul vdt w5 (hΩ _ (x6.size.trans b6))
  have a6 := x6.round hr hu (by rw [s3]; linarith) b6
  have x7 := (xT.mono hu (by norm_num : 0 ≤ 0 + 1 + 0 + 1 + 1 + 1 + 1 + 1) le_rfl).add a6
  have b7 := p2 (k := 0 + 1 + 0 + 1 + 1 + 1 + 1 + 1) (B := 2 * K + p.dt * (H / p.C)) (by norm_num) (by positivity) (by linarith)
  have w7 := F64.value_add vt w6 (hΩ _ (x7.size.trans b7))
  have hfu : p.fu double F T TD = double.fl (T + double.fl (p.dt * double.fl (double.fl (double.fl (F - double.fl (double.fl p.l * T)) -
    double.fl (double.fl (p.e * p.h) * double.fl (T - TD))) / p.C))) := by
    rw [fu, ha, zero_mul, z, sub_zero]
  rw [hfu]
  exact w7

theorem fd64 (hp : p.Pos) (hres : p.Resolved) (hin : p.InRange K (2⁻¹ ^ 1022) (2 ^ 1023)) (hK : 0 ≤ K)
    {T TD : ℝ} (hT : |T| ≤ 2 * K) (hTD : |TD| ≤ 2 * K) {dt t td h c : F64 py} (vdt : dt.value = some p.dt)
    (vt : t.value = some T) (vtd : td.value = some TD) (vh : h.value = some p.h) (vc : c.value = some p.D) :
    (TLM.calcNextTempLower dt td t h c).value = some (p.fd double T TD) := by
  have hD := hp.D; have hh := hp.h; have hdt := hp.dt
  obtain ⟨u, μ, Ω, hr, hu, hu1, hΩ, hin⟩ := range64 (fun μ Ω => p.InRange K μ Ω) hin
  simp only [TLPar.InRange, List.forall_mem_cons, List.not_mem_nil, IsEmpty.forall_iff, forall_const, and_true] at hin
  obtain ⟨-, -, -, -, ⟨m5, o5⟩, -, -, ⟨m8, o8⟩, ⟨m9, o9⟩, ⟨m10, o10⟩, -⟩ := hin
  have p2 : ∀ {k : ℕ} {B : ℝ}, k ≤ 7 → 0 ≤ B → 2 * B ≤ Ω → (1 + u) ^ k * B ≤ Ω := fun hk hB hΩ =>
    (mul_le_mul_of_nonneg_right (pow_le_two hu hu1 hk) hB).trans hΩ
  have n1 : 0 ≤ p.h * K := by positivity
  have xT : Ap u 0 T (2 * K) T := Ap.exact hT
  have xTD : Ap u 0 TD (2 * K) TD := Ap.exact hTD
  have y2 := xT.sub xTD
  have c2 := p2 (k := 0) (B := 2 * K + 2 * K) (by norm_num) (by positivity) (by linarith)
  have v2 := F64.value_sub vt vtd (hΩ _ (y2.size.trans c2))
  have y3 := (y2.round hr hu (by linarith) c2).smul hh.le
  have c3 := p2 (k := 0 + 1) (B := p.h * (2 * K + 2 * K)) (by norm_num) (by positivity) (by linarith)
  have v3 := F64.value_mul vh v2 (hΩ _ (y3.size.trans c3))
  have s1 : p.h * (2 * K + 2 * K) / p.D = 4 * (p.h * K / p.D) := by ring
  have t1 : 0 ≤ p.h * K / p.D := by positivity
  have y4 := (y3.round hr hu (by linarith) c3).div hD
  have c4 := p2 (k := 0 + 1 + 1) (B := p.h * (2 * K + 2 * K) / p.D) (by norm_num) (by positivity) (by rw [s1]; linarith)
  have v4 := F64.value_div v3 vc hD.ne' (hΩ _ (y4.size.trans c4))
  have s3 : p.dt * (p.h * (2 * K + 2 * K) / p.D) = 4 * (p.dt * (p.h * K) / p.D) := by ring
  have t3 : 0 ≤ p.dt * (p.h * K) / p.D := by positivity
  have s4 : p.dt * (p.h * K) / p.D ≤ K := by
    rw [div_le_iff₀ hD]
    calc p.dt * (p.h * K) = p.dt * p.h * K := by ring
      _ ≤ p.D * K := mul_le_mul_of_nonneg_right hres.lower hK
      _ = _ := by ring
  have y5 := (y4.round hr hu (by rw [s1]; linarith) c4).smul hdt.le
  have c5 := p2 (k := 0 + 1 + 1 + 1) (B := p.dt * (p.h * (2 * K + 2 * K) / p.D)) (by norm_num) (by positivity)
    (by rw [s3]; linarith)
  have v5 := F64.value_mul vdt v4 (hΩ _ (y5.size.trans c5))
  have y6 := (xTD.mono hu (by norm_num : 0 ≤ 0 + 1 + 1 + 1 + 1) le_rfl).add (y5.round hr hu (by rw [s3]; linarith) c5)
  have c6 := p2 (k := 0 + 1 + 1 + 1 + 1) (B := 2 * K + p.dt * (p.h * (2 * K + 2 * K) / p.D)) (by norm_num) (by positivity)
    (by rw [s3]; linarith)
  exact F64.value_add vtd v5 (hΩ _ (y6.size.trans c6))

theorem fr64 (hp : p.Pos) (hin : p.InRange K (2⁻¹ ^ 1022) (2 ^ 1023)) (hK : 0 ≤ K) {T TD T' TD' : ℝ}
    (hT : |T| ≤ 2 * K) (hTD : |TD| ≤ 2 * K) (hT' : |T'| ≤ 2 * K) (hTD' : |TD'| ≤ 2 * K)
    {dt t td t' td' c d : F64 py} (vdt : dt.value = some p.dt)
    (vt : t.value = some T) (vtd : td.value = some TD) (vt' : t'.value = some T') (vtd' : td'.value = some TD')
    (vc : c.value = some p.C) (vd : d.value = some p.D) :
    (TLM.calcNextRndt dt td' td d t' t c).value = some (p.fr double T TD T' TD') := by
  have hC := hp.C; have hD := hp.D; have hdt := hp.dt
  obtain ⟨u, μ, Ω, hr, hu, hu1, hΩ, hin⟩ := range64 (fun μ Ω => p.InRange K μ Ω) hin
  simp only [TLPar.InRange, List.forall_mem_cons, List.not_mem_nil, IsEmpty.forall_iff, forall_const, and_true] at hin
  obtain ⟨-, -, -, -, ⟨m5, o5⟩, -, -, -, -, -, ⟨m1, o1⟩, ⟨m2, o2⟩, ⟨m3, o3⟩, ⟨m4, o4⟩, -⟩ := hin
  have p2 : ∀ {k : ℕ} {B : ℝ}, k ≤ 7 → 0 ≤ B → 2 * B ≤ Ω → (1 + u) ^ k * B ≤ Ω := fun hk hB hΩ =>
    (mul_le_mul_of_nonneg_right (pow_le_two hu hu1 hk) hB).trans hΩ
  have xT : Ap u 0 T (2 * K) T := Ap.exact hT
  have xTD : Ap u 0 TD (2 * K) TD := Ap.exact hTD
  have xT' : Ap u 0 T' (2 * K) T' := Ap.exact hT'
  have xTD' : Ap u 0 TD' (2 * K) TD' := Ap.exact hTD'
  have n1 : 0 ≤ p.C * K := by positivity
  have n2 : 0 ≤ p.D * K := by positivity
  have n3 : 0 ≤ p.C * K / p.dt := by positivity
  have n4 : 0 ≤ p.D * K / p.dt := by positivity
  have c0 := p2 (k := 0) (B := 2 * K + 2 * K) (by norm_num) (by positivity) (by linarith)
  have y1 := xT'.sub xT
  have v1 := F64.value_sub vt' vt (hΩ _ (y1.size.trans c0))
  have y2 := (y1.round hr hu (by linarith) c0).smul hC.le
  have c2 := p2 (k := 0 + 1) (B := p.C * (2 * K + 2 * K)) (by norm_num) (by positivity) (by linarith)
  have v2 := F64.value_mul vc v1 (hΩ _ (y2.size.trans c2))
  have s1 : p.C * (2 * K + 2 * K) / p.dt = 4 * (p.C * K / p.dt) := by ring
  have y3 := (y2.round hr hu (by linarith) c2).div hdt
  have c3 := p2 (k := 0 + 1 + 1) (B := p.C * (2 * K + 2 * K) / p.dt) (by norm_num) (by positivity) (by rw [s1]; linarith)
  have v3 := F64.value_div v2 vdt hdt.ne' (hΩ _ (y3.size.trans c3))
  have z1 := xTD'.sub xTD
  have w1 := F64.value_sub vtd' vtd (hΩ _ (z1.size.trans c0))
  have z2 := (z1.round hr hu (by linarith) c0).smul hD.le
  have d2 := p2 (k := 0 + 1) (B := p.D * (2 * K + 2 * K)) (by norm_num) (by positivity) (by linarith)
  have w2 := F64.value_mul vd w1 (hΩ _ (z2.size.trans d2))
  have s2 : p.D * (2 * K + 2 * K) / p.dt = 4 * (p.D * K / p.dt) := by ring
  have z3 := (z2.round hr hu (by linarith) d2).div hdt
  have d3 := p2 (k := 0 + 1 + 1) (B := p.D * (2 * K + 2 * K) / p.dt) (by norm_num) (by positivity) (by rw [s2]; linarith)
  have w3 := F64.value_div w2 vdt hdt.ne' (hΩ _ (z3.size.trans d3))
  have y4 := (y3.round hr hu (by rw [s1]; linarith) c3).add (z3.round hr hu (by rw [s2]; linarith) d3)
  have c4 := p2 (k := 0 + 1 + 1 + 1) (B := p.C * (2 * K + 2 * K) / p.dt + p.D * (2 * K + 2 * K) / p.dt) (by norm_num)
    (by positivity) (by rw [s1, s2]; linarith)
  exact F64.value_add v3 w3 (hΩ _ (y4.size.trans c4))

/-- the temperatures of the rounded run stay within twice the scale -/
theorem fsol_bounded {r : Rounding} {u μ Ω : ℝ} (hr : r.Accurate u μ Ω) (hu : 0 ≤ u) (hu1 : u ≤ 1 / 100) (hp : p.Pos)
    (hres : p.Resolved) (ha : p.a = 0) (hin : p.InRange K μ Ω) (hK : 0 ≤ K) (hκ : 48 * u * p.memory ≤ 1) {F : ℕ → ℝ} {k : ℕ}
    (hF : ∀ i < k, |F i| ≤ p.l * K) :
    ∀ i ≤ k, |(p.fsol r F i).1| ≤ 2 * K ∧ |(p.fsol r F i).2.1| ≤ 2 * K := by
  have hC := hp.C; have hD := hp.D; have hl := hp.l; have he := hp.e; have hh := hp.h; have hdt := hp.dt
  intro i hi
  obtain ⟨h1, h2⟩ := fsol_err hr hu hu1 hp hres ha hin hK hκ hF i hi
  have hm : (p.C + p.e * p.D) / (p.dt * p.l) ≤ p.memory := by
    unfold memory
    have : 0 ≤ p.D / (p.dt * p.h) := by positivity
    linarith
  have hEl : 48 * u * K * p.memory ≤ K := by
    have : 48 * u * K * p.memory = (48 * u * p.memory) * K := by ring
    rw [this]; exact mul_le_of_le_one_left hK hκ
  have h1' : |(p.fsol r F i).1 - p.T F i| ≤ K := h1.trans (le_trans (by gcongr) hEl)
  have h0 : 0 ≤ p.l * K := by positivity
  have hb := bounds hres ha (lo := -(p.l * K)) (hi := p.l * K) (by linarith) h0 (fun j hj => abs_le.mp (hF j hj)) i hi
  rw [neg_div, mul_div_cancel_left₀ _ hl.ne'] at hb
  have b1 : |p.T F i| ≤ K := abs_le.mpr hb.1
  have b2 : |p.TD F i| ≤ K := abs_le.mpr hb.2
  have tri : ∀ x y : ℝ, |x| ≤ |x - y| + |y| := fun x y => by
    calc |x| = |(x - y) + y| := by congr 1; ring
      _ ≤ _ := abs_add_le _ _
  exact ⟨(tri _ _).trans (by linarith), (tri _ _).trans (by linarith)⟩
end TLPar

section
variable {N : Type} [Fintype N] [DecidableEq N] {py : Bool} {R : Registry N (F64 py)}

theorem IsNum64.magIn {q : Qty N (F64 py)} {u : Units N} {x : ℝ} (h : IsNum64 R q u x) : (q.magIn R u).value = some x := by
  obtain ⟨y, h1, h2⟩ := h
  unfold Qty.toUnit at h1
  split at h1
  · injection h1 with h1
    rw [show q.magIn R u = y from congrArg Qty.mag h1]; exact h2
  · cases h1

theorem IsForcing64.good {d : DArg N (F64 py)} {n : ℕ} {F : ℕ → ℝ} (h : IsForcing64 R d n F) (hn : n ≠ 0) :
    ∃ vals u, d = .qty ⟨1, vals⟩ u ∧ vals.length = n ∧ GoodDrivers R d vals u ∧
      ∀ i < n, ∃ x, getAt (modelF R vals u) i = .ok x ∧ x.value = some (F i) := by
  obtain ⟨vals, u, rfl, hlen, hv⟩ := h
  refine ⟨vals, u, rfl, hlen, ⟨rfl, ?_, ?_⟩, ?_⟩
  · obtain ⟨y, h0, -⟩ := (hv 0 (by omega)).1
    unfold Qty.toUnit at h0
    split at h0
    · assumption
    · cases h0
  · rw [List.any_eq_false]
    intro x hx
    obtain ⟨i, hi, rfl⟩ := List.getElem_of_mem hx
    rw [(hv i hi).2]; simp
  · intro i hi
    refine ⟨_, ?_, (hv i (by omega)).1.magIn⟩
    simp [getAt, modelF, magsIn, List.getElem?_eq_getElem (show i < vals.length by omega)]

theorem TLM.seq64 {m : TLM N (F64 py)} {p : TLPar} {K : ℝ} (hc : m.Coherent R) (hp : m.Phys64 R p) (hpos : p.Pos)
    (hres : p.Resolved) (ha : p.a = 0) (hin : p.InRange K (2⁻¹ ^ 1022) (2 ^ 1023)) (hK : 0 ≤ K)
    (hκ : 48 * 2⁻¹ ^ 53 * p.memory ≤ 1) {n : ℕ} {F : ℕ → ℝ} {Fs : List (F64 py)}
    (hFs : ∀ i < n, ∃ x, getAt Fs i = .ok x ∧ x.value = some (F i)) (hF : ∀ i < n, |F i| ≤ p.l * K) :
    ∀ i < n, ∃ x, m.eng.seq Fs i = .ok x ∧ x.1.value = some (p.fsol double F i).1 ∧
      x.2.1.value = some (p.fsol double F i).2.1 ∧ x.2.2.value = some (p.fsol double F i).2.2 := by
  have e1 : m.core.deltaTMag.value = some p.dt := by rw [hc.core.dtMag]; exact hp.dt.magIn
  have e2 : m.lambda0Mag.value = some p.l := by rw [hc.lambda0Mag]; exact hp.lambda0.magIn
  have e3 : m.aMag.value = some p.a := by rw [hc.aMag]; exact hp.a.magIn
  have e4 : m.efficacyMag.value = some p.e := by rw [hc.efficacyMag]; exact hp.efficacy.magIn
  have e5 : m.etaMag.value = some p.h := by rw [hc.etaMag]; exact hp.eta.magIn
  have e6 : m.hcuMag.value = some p.C := by rw [hc.hcuMag]; exact hp.C.magIn
  have e7 : m.hclMag.value = some p.D := by rw [hc.hclMag]; exact hp.D.magIn
  have hb := TLPar.fsol_bounded (double_accurate (2 ^ 1023)) (by positivity) (by norm_num) hpos hres ha hin hK hκ hF
  intro i
  induction i with
  | zero =>
    intro _
    exact ⟨_, rfl, F64.value_zero_lit, F64.value_zero_lit, F64.value_zero_lit⟩
  | succ i ih =>
    intro hi
    obtain ⟨⟨a, b, c⟩, hx, h1, h2, h3⟩ := ih (by omega)
    obtain ⟨f, hf, hfv⟩ := hFs i (by omega)
    obtain ⟨b1, b2⟩ := hb i (by omega)
    obtain ⟨b3, b4⟩ := hb (i + 1) hi.le
    have g1 := TLPar.fu64 hpos hres ha hin hK (hF i (by omega)) b1 b2 e1 h1 h2 hfv e2 e3 e4 e5 e6
    have g2 := TLPar.fd64 hpos hres hin hK b1 b2 e1 h1 h2 e5 e7
    have g3 := TLPar.fr64 hpos hin hK b1 b2 b3 b4 e1 h1 h2 g1 g2 e6 e7
    refine ⟨_, by simp only [Eng.seq, hx, hf]; rfl, g1, g2, g3⟩

theorem TLM.produces64 {m : TLM N (F64 py)} {p : TLPar} {K : ℝ} (hc : m.Coherent R) (hp : m.Phys64 R p) (hpos : p.Pos)
    (hres : p.Resolved) (ha : p.a = 0) (hin : p.InRange K (2⁻¹ ^ 1022) (2 ^ 1023)) (hK : 0 ≤ K)
    (hκ : 48 * 2⁻¹ ^ 53 * p.memory ≤ 1) {d : DArg N (F64 py)} {n : ℕ} (hn : n ≠ 0) {F : ℕ → ℝ} (hd : IsForcing64 R d n F)
    (hF : ∀ i < n, |F i| ≤ p.l * K) :
    TLM.Produces64 R m d n (fun i => (p.fsol double F i).1) (fun i => (p.fsol double F i).2.1)
      (fun i => (p.fsol double F i).2.2) := by
  obtain ⟨vals, u, rfl, hlen, hg, hmF⟩ := hd.good hn
  obtain ⟨m', hm'⟩ := TLM.simulate_succeeds R m hg
  obtain ⟨vals', u', v, hg', hv, hI⟩ := TLM.simulate_ok hm'
  obtain ⟨h1, -⟩ := hg'
  cases h1
  have lA := hI.lA; have lB := hI.lB; have lC := hI.lC
  rw [modelF_length, hlen] at lA lB lC
  have key : ∀ i < n, ∃ x : F64 py × F64 py × F64 py, v.A[i]? = some x.1 ∧ v.B[i]? = some x.2.1 ∧ v.C[i]? = some x.2.2 ∧
      x.1.value = some (p.fsol double F i).1 ∧ x.2.1.value = some (p.fsol double F i).2.1 ∧
      x.2.2.value = some (p.fsol double F i).2.2 := by
    intro i hi
    obtain ⟨a, b, c, h1, h2, h3, h4⟩ := hI.done i (by omega)
    obtain ⟨x, hx, hx'⟩ := TLM.seq64 hc hp hpos hres ha hin hK hκ hmF hF i hi
    rw [h1] at hx
    cases hx
    exact ⟨_, h2, h3, h4, hx'⟩
  refine ⟨m', v.A, v.B, v.C, hm', by rw [hv]; rfl, ⟨lA, fun i hi => ?_⟩, ⟨lB, fun i hi => ?_⟩, ⟨lC, fun i hi => ?_⟩⟩
  · obtain ⟨x, h1, h2, h3, h4, h5, h6⟩ := key i (by omega)
    rw [List.getElem?_eq_getElem hi] at h1
    rw [Option.some.inj h1]; exact h4
  · obtain ⟨x, h1, h2, h3, h4, h5, h6⟩ := key i (by omega)
    rw [List.getElem?_eq_getElem hi] at h2
    rw [Option.some.inj h2]; exact h5
  · obtain ⟨x, h1, h2, h3, h4, h5, h6⟩ := key i (by omega)
    rw [List.getElem?_eq_getElem hi] at h3
    rw [Option.some.inj h3]; exact h6
end

/-! ## Impulse response -/

namespace F64
variable {py : Bool}
theorem eq_value {x y : F64 py} {a b : ℝ} (hx : x.value = some a) (hy : y.value = some b) :
    Arith.eq x y = decide (a = b) := by
  show compare (· = ·) x y = _
  have p : ∀ {z : F64 py} {c : ℝ}, z.value = some c → z.place = some (c : EReal) := by
    intro z c h
    cases z <;> cases h <;> simp [place]
  simp only [compare, p hx, p hy]
  by_cases h : a = b
  · simp [h]
  · simp [h]

theorem le_value {x y : F64 py} {a b : ℝ} (hx : x.value = some a) (hy : y.value = some b) :
    Arith.le x y = decide (a ≤ b) := by
  show compare (· ≤ ·) x y = _
  have p : ∀ {z : F64 py} {c : ℝ}, z.value = some c → z.place = some (c : EReal) := by
    intro z c h
    cases z <;> cases h <;> simp [place]
  simp only [compare, p hx, p hy]
  by_cases h : a ≤ b
  · simp [h]
  · simp [h]

theorem value_ofNat_small {n : ℕ} (h : n < 2 ^ 53) : (Arith.ofNat n : F64 py).value = some (n : ℝ) := by
  rw [value_ofNat, show near64 (n : ℝ) = n from double_int h]
  have h1 : (n : ℝ) < 2 ^ 53 := by exact_mod_cast h
  exact h1.le.trans (pow_le_pow_right₀ (by norm_num) (by norm_num))

theorem pyDiv64 {y : F64 py} {b : ℝ} (hy : y.value = some b) (hb : b ≠ 0) (x : F64 py) : pyDiv x y = .ok (x / y) := by
  unfold pyDiv
  rw [eq_value hy (value_ofNat_small (n := 0) (by norm_num))]
  simp [hb]
end F64

section
variable {py : Bool}

theorem near64_one : near64 1 = 1 := by
  have := double_int (n := 1) (by norm_num)
  rwa [Nat.cast_one] at this

theorem fbox64 {q d dt M : ℝ} (hq : 0 < q) (hd : 0 < d) (hdt : 0 < dt)
    (hin : (fun μ Ω : ℝ => μ ≤ 1 ∧ 64 ≤ Ω ∧ μ ≤ dt / d ∧ dt / d ≤ Ω ∧ μ ≤ q * M ∧ 64 * (q * M) ≤ Ω) (2⁻¹ ^ 1022) (2 ^ 1023))
    (hM : 0 ≤ M) {F t : ℝ} (hF : |F| ≤ M) (ht : |t| ≤ 2 * (q * M)) {x q' d' dt' f : F64 py} (vx : x.value = some t)
    (vq : q'.value = some q) (vd : d'.value = some d) (vdt : dt'.value = some dt) (vf : f.value = some F) :
    ∃ y, IRM.calcNextTemp dt' x q' d' f = .ok y ∧ y.value = some (fbox double q d dt F t) := by
  obtain ⟨u, μ, Ω, hr, hu, hu1, hΩ', hμ, hΩ, hx1, hx2, hM1, hM2⟩ := range64
    (fun μ Ω : ℝ => μ ≤ 1 ∧ 64 ≤ Ω ∧ μ ≤ dt / d ∧ dt / d ≤ Ω ∧ μ ≤ q * M ∧ 64 * (q * M) ≤ Ω) hin
  have p2 : ∀ {k : ℕ} {B : ℝ}, k ≤ 7 → 0 ≤ B → 2 * B ≤ Ω → (1 + u) ^ k * B ≤ Ω := fun hk hB hΩ =>
    (mul_le_mul_of_nonneg_right (pow_le_two hu hu1 hk) hB).trans hΩ
  have hK : 0 ≤ q * M := by positivity
  have e := decay_err hr hu hu1 hμ (div_pos hdt hd).le hx1 hx2
  have hD : pyDiv (-dt') d' = .ok (-dt' / d') := F64.pyDiv64 vd hd.ne' _
  have g1 : (-dt' / d').value = some (near64 (-dt / d)) :=
    F64.value_div (F64.value_neg vdt) vd hd.ne' (by
      rw [neg_div, abs_neg, abs_of_pos (div_pos hdt hd)]; exact hΩ' _ hx2)
  have hneg : near64 (-dt / d) ≤ 0 := by
    have h1 := hr.fl (-(dt / d)) (by rwa [abs_neg, abs_of_pos (div_pos hdt hd)])
    rw [abs_neg, abs_of_pos (div_pos hdt hd), max_eq_left hx1] at h1
    have h2 := (abs_le.mp h1).2
    have h3 : double.fl (-(dt / d)) = near64 (-dt / d) := by rw [neg_div]; rfl
    have h4 := div_pos hdt hd
    rw [h3] at h2
    nlinarith
  have g2 : (Arith.exp (-dt' / d') : F64 py).value = some (double.exp (double.fl (-dt / d))) := F64.value_exp g1 hneg
  have a1 : Ap u 1 (1 : ℝ) 1 (double.fl 1) :=
    (Ap.exact (x := 1) (by simp)).round hr hu hμ (p2 (by norm_num) (by norm_num) (by linarith))
  have go : (Arith.ofNat 1 : F64 py).value = some (double.fl 1) := by
    rw [F64.value_ofNat_small (by norm_num), Nat.cast_one]
    show some 1 = some (near64 1)
    rw [near64_one]
  rw [← neg_div] at e
  have y2 := (a1.mono hu (by norm_num : 1 ≤ 2) le_rfl).sub e
  have c2 := p2 (k := 2) (B := (1 : ℝ) + 1) (by norm_num) (by norm_num) (by linarith)
  have g3 := F64.value_sub go g2 (hΩ' _ (y2.size.trans c2))
  have a2 := y2.round hr hu (by linarith) c2
  have xt : Ap u 0 t (2 * (q * M)) t := Ap.exact ht
  have y3 := xt.mul hu e
  have c3 := p2 (k := 0 + 2) (B := 2 * (q * M) * 1) (by norm_num) (by positivity) (by linarith)
  have g4 := F64.value_mul vx g2 (hΩ' _ (y3.size.trans c3))
  have b1 := y3.round hr hu (by linarith) c3
  have xF : Ap u 0 (F * q) (q * M) (F * q) := Ap.exact (by rw [abs_mul, abs_of_pos hq, mul_comm]; gcongr)
  have c4 := p2 (k := 0) (B := q * M) (by norm_num) hK (by linarith)
  have g5 := F64.value_mul vf vq (hΩ' _ (xF.size.trans c4))
  have y5 := (xF.round hr hu hM1 c4).mul hu a2
  have c5 := p2 (k := 0 + 1 + (2 + 1)) (B := q * M * (1 + 1)) (by norm_num) (by positivity) (by linarith)
  have g6 := F64.value_mul g5 g3 (hΩ' _ (y5.size.trans c5))
  have y6 := (b1.mono hu (by norm_num : 0 + 2 + 1 ≤ 0 + 1 + (2 + 1) + 1) le_rfl).add (y5.round hr hu (by linarith) c5)
  have c6 := p2 (k := 0 + 1 + (2 + 1) + 1) (B := 2 * (q * M) * 1 + q * M * (1 + 1)) (by norm_num) (by positivity) (by linarith)
  have g7 := F64.value_add g4 g6 (hΩ' _ (y6.size.trans c6))
  refine ⟨_, ?_, g7⟩
  simp only [IRM.calcNextTemp, hD, bind, Except.bind, pure, Except.pure]

variable {N : Type} [Fintype N] [DecidableEq N] {R : Registry N (F64 py)}

set_option maxHeartbeats 2000000 in
theorem IRM.conv64 {m : IRM N (F64 py)} {p : IRPar} (hp : m.Phys64 R p) (hok : p.Ok) (hpl : m.PlainUnits64 R)
    (hin : p.ConvInRange (2⁻¹ ^ 1022) (2 ^ 1023)) :
    ∃ t, m.getTwoLayerParameters R = .ok t ∧ t.lambda0.mag.value = some (p.fl0 double) := by
  have hq1 := hok.q1; have hq2 := hok.q2; have hd1 := hok.d1; have hd2 := hok.d1.trans hok.d2
  obtain ⟨u, μ, Ω, hr, hu, hu1, hΩ', ⟨hμ, hμ0⟩, hΩ, hin'⟩ := range64 (fun μ Ω => (μ ≤ 1 ∧ 0 ≤ μ) ∧ p.ConvInRange μ Ω)
    ⟨⟨pow_le_one₀ (by norm_num) (by norm_num), by positivity⟩, hin⟩
  have num : ∀ {q : Qty N (F64 py)} {w : Units N} {x : ℝ}, IsNum64 R q w x → q.unit = w →
      ∃ y, q = ⟨y, w⟩ ∧ y.value = some x := by
    intro q w x h hw
    have := h.magIn
    rw [Qty.magIn, if_pos hw] at this
    exact ⟨q.mag, by cases q; simp_all, this⟩
  obtain ⟨x1, f1, v1⟩ := num hp.q1 hpl.q1
  obtain ⟨x2, f2, v2⟩ := num hp.q2 hpl.q2
  obtain ⟨x3, f3, v3⟩ := num hp.d1 hpl.d1
  obtain ⟨x4, f4, v4⟩ := num hp.d2 hpl.d2
  simp only [List.forall_mem_cons, List.not_mem_nil, IsEmpty.forall_iff, forall_const, and_true] at hin'
  obtain ⟨⟨m1, o1⟩, ⟨m2, o2⟩, ⟨m3, o3⟩, ⟨m4, o4⟩, ⟨m5, o5⟩, ⟨m6, o6⟩, ⟨m7, o7⟩, ⟨m8, o8⟩⟩ := hin'
  set s := p.q1 + p.q2 with hs
  have hs0 : 0 < s := by positivity
  have near := fun {x : ℝ} => hr.near hu1 (x := x)
  have fits : ∀ {x : ℝ}, 0 < x → x ≤ Ω → |x| ≤ 2 ^ 1023 := fun h0 h => by rw [abs_of_pos h0]; exact hΩ' _ h
  have n1 := near (x := 1) (by norm_num) hμ (by linarith)
  have ns := near hs0 (by linarith) (by linarith)
  have ns0 : 0 < double.fl s := by linarith [ns.1]
  have vs : (x1 + x2).value = some (double.fl s) := F64.value_add v1 v2 (fits hs0 (by linarith))
  have vo : (Arith.ofNat 1 : F64 py).value = some (double.fl 1) := by
    rw [F64.value_ofNat_small (by norm_num), Nat.cast_one]
    show some 1 = some (near64 1)
    rw [near64_one]
  -- lambda0
  have l1 : 1 / s / 4 ≤ double.fl 1 / double.fl s := by
    rw [div_div, div_le_div_iff₀ (by positivity) ns0]; nlinarith [n1.1, ns.2]
  have l2 : double.fl 1 / double.fl s ≤ 4 * (1 / s) := by
    rw [div_le_iff₀ ns0]
    have : 4 * (1 / s) * double.fl s = 4 * (double.fl s / s) := by ring
    rw [this]
    have : 1 / 2 ≤ double.fl s / s := by rw [le_div_iff₀ hs0]; linarith [ns.1]
    linarith [n1.2]
  have l0 : 0 < double.fl 1 / double.fl s := lt_of_lt_of_le (by positivity) l1
  have nl := near l0 (by linarith) (by linarith)
  have vl : (Arith.ofNat 1 / (x1 + x2) : F64 py).value = some (p.fl0 double) :=
    F64.value_div vo vs ns0.ne' (fits l0 (by linarith))
  have L1 : 1 / s / 8 ≤ p.fl0 double := by have := nl.1; unfold IRPar.fl0; linarith
  have L2 : p.fl0 double ≤ 8 * (1 / s) := by have := nl.2; unfold IRPar.fl0; linarith
  have L0 : 0 < p.fl0 double := lt_of_lt_of_le (by positivity) L1
  -- cden
  have p1 : 0 < p.q1 * p.d2 := mul_pos hq1 hd2
  have p2 : 0 < p.q2 * p.d1 := mul_pos hq2 hd1
  have c1 := near p1 (by linarith) (by linarith)
  have c2 := near p2 (by linarith) (by linarith)
  have c3 := near (x := double.fl (p.q1 * p.d2) + double.fl (p.q2 * p.d1)) (by linarith [c1.1, c2.1]) (by linarith [c1.1, c2.1])
    (by linarith [c1.2, c2.2])
  have vc : (x1 * x4 + x2 * x3).value = some (double.fl (double.fl (p.q1 * p.d2) + double.fl (p.q2 * p.d1))) :=
    F64.value_add (F64.value_mul v1 v4 (fits p1 (by linarith))) (F64.value_mul v2 v3 (fits p2 (by linarith)))
      (fits (x := double.fl (p.q1 * p.d2) + double.fl (p.q2 * p.d1)) (by linarith [c1.1, c2.1]) (by linarith [c1.2, c2.2]))
  have c0 : double.fl (double.fl (p.q1 * p.d2) + double.fl (p.q2 * p.d1)) ≠ 0 := by linarith [c3.1, c1.1, c2.1]
  -- a1, a2
  have a1 : 1 / 8 * (p.q1 / s) ≤ p.fl0 double * p.q1 ∧ p.fl0 double * p.q1 ≤ 8 * (p.q1 / s) := by
    constructor
    · calc 1 / 8 * (p.q1 / s) = 1 / s / 8 * p.q1 := by ring
        _ ≤ _ := by gcongr
    · calc p.fl0 double * p.q1 ≤ 8 * (1 / s) * p.q1 := by gcongr
        _ = _ := by ring
  have a2 : 1 / 8 * (p.q2 / s) ≤ p.fl0 double * p.q2 ∧ p.fl0 double * p.q2 ≤ 8 * (p.q2 / s) := by
    constructor
    · calc 1 / 8 * (p.q2 / s) = 1 / s / 8 * p.q2 := by ring
        _ ≤ _ := by gcongr
    · calc p.fl0 double * p.q2 ≤ 8 * (1 / s) * p.q2 := by gcongr
        _ = _ := by ring
  have p5 : 0 < p.q1 / s := by positivity
  have p6 : 0 < p.q2 / s := by positivity
  have na1 := near (mul_pos L0 hq1) (by linarith [a1.1]) (by linarith [a1.2])
  have na2 := near (mul_pos L0 hq2) (by linarith [a2.1]) (by linarith [a2.2])
  have vA1 : (Arith.ofNat 1 / (x1 + x2) * x1 : F64 py).value = some (double.fl (p.fl0 double * p.q1)) :=
    F64.value_mul vl v1 (fits (mul_pos L0 hq1) (by linarith [a1.2]))
  have vA2 : (Arith.ofNat 1 / (x1 + x2) * x2 : F64 py).value = some (double.fl (p.fl0 double * p.q2)) :=
    F64.value_mul vl v2 (fits (mul_pos L0 hq2) (by linarith [a2.2]))
  set A1 := double.fl (p.fl0 double * p.q1)
  set A2 := double.fl (p.fl0 double * p.q2)
  have A1l : 1 / 16 * (p.q1 / s) ≤ A1 := by linarith [na1.1, a1.1]
  have A1u : A1 ≤ 16 * (p.q1 / s) := by linarith [na1.2, a1.2]
  have A2l : 1 / 16 * (p.q2 / s) ≤ A2 := by linarith [na2.1, a2.1]
  have A2u : A2 ≤ 16 * (p.q2 / s) := by linarith [na2.2, a2.2]
  have p7 : 0 < p.d1 * (p.q2 / s) := by positivity
  have p8 : 0 < p.d2 * (p.q1 / s) := by positivity
  have b1l : 1 / 16 * (p.d1 * (p.q2 / s)) ≤ p.d1 * A2 := by
    calc _ = p.d1 * (1 / 16 * (p.q2 / s)) := by ring
      _ ≤ _ := by gcongr
  have b1u : p.d1 * A2 ≤ 16 * (p.d1 * (p.q2 / s)) := by
    calc _ ≤ p.d1 * (16 * (p.q2 / s)) := by gcongr
      _ = _ := by ring
  have b2l : 1 / 16 * (p.d2 * (p.q1 / s)) ≤ p.d2 * A1 := by
    calc _ = p.d2 * (1 / 16 * (p.q1 / s)) := by ring
      _ ≤ _ := by gcongr
  have b2u : p.d2 * A1 ≤ 16 * (p.d2 * (p.q1 / s)) := by
    calc _ ≤ p.d2 * (16 * (p.q1 / s)) := by gcongr
      _ = _ := by ring
  have nb1 := near (x := p.d1 * A2) (by linarith) (by linarith) (by linarith)
  have nb2 := near (x := p.d2 * A1) (by linarith) (by linarith) (by linarith)
  have nb3 := near (x := double.fl (p.d1 * A2) + double.fl (p.d2 * A1)) (by linarith [nb1.1, nb2.1]) (by linarith [nb1.1, nb2.1])
    (by linarith [nb1.2, nb2.2])
  have vb : (x3 * (Arith.ofNat 1 / (x1 + x2) * x2) + x4 * (Arith.ofNat 1 / (x1 + x2) * x1) : F64 py).value =
      some (double.fl (double.fl (p.d1 * A2) + double.fl (p.d2 * A1))) :=
    F64.value_add (F64.value_mul v3 vA2 (fits (x := p.d1 * A2) (by linarith) (by linarith)))
      (F64.value_mul v4 vA1 (fits (x := p.d2 * A1) (by linarith) (by linarith)))
      (fits (x := double.fl (p.d1 * A2) + double.fl (p.d2 * A1)) (by linarith [nb1.1, nb2.1]) (by linarith [nb1.2, nb2.2]))
  have b0 : double.fl (double.fl (p.d1 * A2) + double.fl (p.d2 * A1)) ≠ 0 := by linarith [nb1.1, nb2.1, nb3.1]
  -- water
  have vw : (Arith.ofNat 1000 * Arith.ofNat 4181 : F64 py).value = some ((1000 * 4181 : ℕ) : ℝ) := by
    have h := F64.value_mul (F64.value_ofNat_small (py := py) (n := 1000) (by norm_num))
      (F64.value_ofNat_small (py := py) (n := 4181) (by norm_num))
      (fits (x := ((1000 : ℕ) : ℝ) * ((4181 : ℕ) : ℝ)) (by norm_num) (by norm_num; linarith))
    rw [h, ← Nat.cast_mul, show near64 ((1000 * 4181 : ℕ) : ℝ) = ((1000 * 4181 : ℕ) : ℝ) from double_int (by norm_num)]
  have w0 : ((1000 * 4181 : ℕ) : ℝ) ≠ 0 := by norm_num
  have ve : (F64.num 1 : F64 py).value = some 1 := rfl
  have u2 : R.yr + (-R.cwm2 + R.cwm2) = R.yr := by rw [neg_add_cancel, add_zero]
  have u3 : R.yr + R.yr - (R.cwm2 + R.yr) = -R.cwm2 + R.yr := by abel
  have D1 : pyDiv (Arith.ofNat 1 : F64 py) (x1 + x2) = .ok (Arith.ofNat 1 / (x1 + x2)) := F64.pyDiv64 vs ns0.ne' _
  have D2 := F64.pyDiv64 vc c0
  have D3 := F64.pyDiv64 ve one_ne_zero
  have D4 := F64.pyDiv64 vb b0
  have D5 := F64.pyDiv64 vw w0
  have f5 := hpl.efficacy
  clear hin hr near fits vs vo vc vb vw ve
  generalize p.fl0 double = L at *
  clear_value A1 A2 s
  clear * - f1 f2 f3 f4 f5 D1 D2 D3 D4 D5 u2 u3 vl
  simp only [IRM.getTwoLayerParameters, f1, f2, f3, f4, f5, Qty.add, Qty.ndiv, Qty.mul, Qty.div, Qty.sub,
      Qty.magIn, true_or, if_true, bind, Except.bind, pure, Except.pure, D1, D2, D3, D4, D5, Registry.densityWater,
      Registry.heatCapacityWater, u2, u3]
  exact ⟨_, rfl, vl⟩

theorem IRM.nextRndt64 {m : IRM N (F64 py)} {p : IRPar} (hp : m.Phys64 R p) (hok : p.Ok) (hpl : m.PlainUnits64 R) {M : ℝ}
    (hM : 0 ≤ M) (hin : p.ConvInRange (2⁻¹ ^ 1022) (2 ^ 1023)) (hin' : p.InRange M (2⁻¹ ^ 1022) (2 ^ 1023))
    {f t1 t2 : ℝ} (hf : |f| ≤ M) (h1 : |t1| ≤ 2 * (p.q1 * M))
    (h2 : |t2| ≤ 2 * (p.q2 * M)) {x1 x2 y : F64 py} (v1 : x1.value = some t1) (v2 : x2.value = some t2)
    (vf : y.value = some f) :
    ∃ z, m.calcNextRndt R x1 x2 y (F64.num 1) = .ok z ∧
      z.value = some (double.fl (double.fl (f - double.fl (p.fl0 double * double.fl (t1 + t2))))) := by
  obtain ⟨t, ht, hv⟩ := IRM.conv64 hp hok hpl hin
  have hq1 := hok.q1; have hq2 := hok.q2
  obtain ⟨u, μ, Ω, hr, hu, hu1, hΩ', hμ0, hin, hμ, hΩ, hr'⟩ := range64
    (fun μ Ω => 0 ≤ μ ∧ p.ConvInRange μ Ω ∧ p.InRange M μ Ω) ⟨by positivity, hin, hin'⟩
  simp only [List.forall_mem_cons, List.not_mem_nil, IsEmpty.forall_iff, forall_const, and_true] at hr'
  obtain ⟨⟨m1, o1⟩, ⟨m2, o2⟩, ⟨m3, o3⟩, -, -, ⟨m6, o6⟩⟩ := hr'
  have hl := IRPar.fl0_err hr hu hu1 hq1 hq2 hμ hΩ hin hμ0
  have hs : 0 < p.q1 + p.q2 := by positivity
  have p3 : ∀ {k : ℕ} {B : ℝ}, k ≤ 7 → 0 ≤ B → 2 * B ≤ Ω → (1 + u) ^ k * B ≤ Ω := fun hk hB hΩ =>
    (mul_le_mul_of_nonneg_right (pow_le_two hu hu1 hk) hB).trans hΩ
  have k1 : 0 ≤ p.q1 * M := by positivity
  have k2 : 0 ≤ p.q2 * M := by positivity
  have x1' : Ap u 0 t1 (2 * (p.q1 * M)) t1 := Ap.exact h1
  have x2' : Ap u 0 t2 (2 * (p.q2 * M)) t2 := Ap.exact h2
  have y1 := x1'.add x2'
  have c1 := p3 (k := 0) (B := 2 * (p.q1 * M) + 2 * (p.q2 * M)) (by norm_num) (by positivity) (by linarith)
  have g1 := F64.value_add v1 v2 (hΩ' _ (y1.size.trans c1))
  have a1 := y1.round hr hu (by linarith) c1
  have eB : 1 / (p.q1 + p.q2) * (2 * (p.q1 * M) + 2 * (p.q2 * M)) = 2 * M := by field_simp
  have a2 := hl.mul hu a1
  rw [eB] at a2
  have c2 := p3 (k := 4 + (0 + 1)) (B := 2 * M) (by norm_num) (by positivity) (by linarith)
  have g2 := F64.value_mul hv g1 (hΩ' _ (a2.size.trans c2))
  have a3 := a2.round hr hu (by linarith) c2
  have xf : Ap u 0 f M f := Ap.exact hf
  have y4 := (xf.mono hu (by norm_num : 0 ≤ 4 + (0 + 1) + 1) le_rfl).sub a3
  have c4 := p3 (k := 4 + (0 + 1) + 1) (B := M + 2 * M) (by norm_num) (by positivity) (by linarith)
  have g4 := F64.value_sub vf g2 (hΩ' _ (y4.size.trans c4))
  have a4 := y4.round hr hu (by linarith) c4
  have c5 := p3 (k := 4 + (0 + 1) + 1 + 1) (B := M + 2 * M) (by norm_num) (by positivity) (by linarith)
  have g5 := F64.value_sub g4 (F64.value_ofNat_small (py := py) (n := 0) (by norm_num))
    (by rw [Nat.cast_zero, sub_zero]; exact hΩ' _ (a4.size.trans c5))
  rw [Nat.cast_zero, sub_zero] at g5
  have he : Arith.eq (F64.num 1 : F64 py) (Arith.ofNat 1) = true := by
    rw [F64.eq_value rfl (F64.value_ofNat_small (n := 1) (by norm_num))]; simp
  refine ⟨_, ?_, g5⟩
  simp only [IRM.calcNextRndt, ht, bind, Except.bind, pure, Except.pure, he, if_true]

theorem IRM.seq64 {m : IRM N (F64 py)} {p : IRPar} (hc : m.Coherent R) (hp : m.Phys64 R p) (hok : p.Ok)
    (hpl : m.PlainUnits64 R) (hdt : 0 < p.dt) {M : ℝ} (hM : 0 ≤ M) (hin : p.ConvInRange (2⁻¹ ^ 1022) (2 ^ 1023))
    (hin' : p.InRange M (2⁻¹ ^ 1022) (2 ^ 1023)) (hκ : 32 * 2⁻¹ ^ 53 * (1 + p.d2 / p.dt) ≤ 1)
    {n : ℕ} {F : ℕ → ℝ} {Fs : List (F64 py)} (hFs : ∀ i < n, ∃ x, getAt Fs i = .ok x ∧ x.value = some (F i))
    (hF : ∀ i < n, |F i| ≤ M) :
    ∀ i < n, ∃ x, (m.eng R).seq Fs i = .ok x ∧ x.1.value = some (fboxes double p.q1 p.d1 p.dt F i) ∧
      x.2.1.value = some (fboxes double p.q2 p.d2 p.dt F i) ∧ x.2.2.value = some (p.fU double F i) ∧
      |fboxes double p.q1 p.d1 p.dt F i| ≤ 2 * (p.q1 * M) ∧ |fboxes double p.q2 p.d2 p.dt F i| ≤ 2 * (p.q2 * M) := by
  have e1 : m.core.deltaTMag.value = some p.dt := by rw [hc.core.dtMag]; exact hp.dt.magIn
  have e2 : m.q1Mag.value = some p.q1 := by rw [hc.q1Mag]; exact hp.q1.magIn
  have e3 : m.q2Mag.value = some p.q2 := by rw [hc.q2Mag]; exact hp.q2.magIn
  have e4 : m.d1Mag.value = some p.d1 := by rw [hc.d1Mag]; exact hp.d1.magIn
  have e5 : m.d2Mag.value = some p.d2 := by rw [hc.d2Mag]; exact hp.d2.magIn
  have e6 : m.efficacyMag = F64.num 1 := by rw [hc.efficacyMag, hpl.efficacy]; simp [Qty.magIn]
  have hd2 := hok.d1.trans hok.d2
  have hin0 := hin'
  obtain ⟨hμ, hΩ, hr'⟩ := hin'
  simp only [List.forall_mem_cons, List.not_mem_nil, IsEmpty.forall_iff, forall_const, and_true] at hr'
  obtain ⟨⟨m1, o1⟩, ⟨m2, o2⟩, ⟨m3, o3⟩, ⟨m4, o4⟩, ⟨m5, o5⟩, ⟨m6, o6⟩⟩ := hr'
  have hκ1 : 32 * (2⁻¹ : ℝ) ^ 53 * (1 + p.d1 / p.dt) ≤ 1 := by
    refine le_trans ?_ hκ
    have := hok.d2
    gcongr
  have le64 : ∀ {x : ℝ}, 0 < x → 64 * x ≤ 2 ^ 1023 → x ≤ 2 ^ 1023 := fun {x} h0 h => le_trans (by linarith only [h0]) h
  have o4' := le64 (div_pos hdt hok.d1) o4
  have o5' := le64 (div_pos hdt hd2) o5
  have hb1 := fboxes_err (double_accurate (2 ^ 1023)) (by positivity) (by norm_num) hμ hΩ hok.q1 hok.d1 hdt m4 o4' m1 o1 hM hκ1
    hF (IRPar.sol_eq p 1 n F).box1
  have hb2 := fboxes_err (double_accurate (2 ^ 1023)) (by positivity) (by norm_num) hμ hΩ hok.q2 hd2 hdt m5 o5' m2 o2 hM hκ
    hF (IRPar.sol_eq p 1 n F).box2
  intro i
  induction i with
  | zero =>
    intro hi
    exact ⟨_, rfl, F64.value_zero_lit, F64.value_zero_lit, F64.value_zero_lit, (hb1 0 hi).2.2, (hb2 0 hi).2.2⟩
  | succ i ih =>
    intro hi
    obtain ⟨⟨a, b, c⟩, hx, h1, h2, h3, h4, h5⟩ := ih (by omega)
    obtain ⟨f, hf, hfv⟩ := hFs i (by omega)
    obtain ⟨y1, g1, w1⟩ := fbox64 hok.q1 hok.d1 hdt ⟨hμ, hΩ, m4, o4', m1, o1⟩ hM (hF i (by omega)) h4 h1 e2 e4 e1 hfv
    obtain ⟨y2, g2, w2⟩ := fbox64 hok.q2 hd2 hdt ⟨hμ, hΩ, m5, o5', m2, o2⟩ hM (hF i (by omega)) h5 h2 e3 e5 e1 hfv
    obtain ⟨y3, g3, w3⟩ := IRM.nextRndt64 hp hok hpl hM hin hin0 (hF i (by omega)) h4 h5 h1 h2 hfv
    refine ⟨(y1, y2, y3), ?_, w1, w2, w3, (hb1 _ hi).2.2, (hb2 _ hi).2.2⟩
    simp only [Eng.seq, hx, hf]
    simp only [IRM.eng, g1, g2, e6, g3]

theorem IRM.produces64 {m : IRM N (F64 py)} {p : IRPar} (hc : m.Coherent R) (hp : m.Phys64 R p) (hok : p.Ok)
    (hpl : m.PlainUnits64 R) (hdt : 0 < p.dt) {M : ℝ} (hM : 0 ≤ M) (hin : p.ConvInRange (2⁻¹ ^ 1022) (2 ^ 1023))
    (hin' : p.InRange M (2⁻¹ ^ 1022) (2 ^ 1023)) (hκ : 32 * 2⁻¹ ^ 53 * (1 + p.d2 / p.dt) ≤ 1)
    {d : DArg N (F64 py)} {n : ℕ} (hn : n ≠ 0) {F : ℕ → ℝ} (hd : IsForcing64 R d n F) (hF : ∀ i < n, |F i| ≤ M) :
    IRM.Produces64 R m d n (fboxes double p.q1 p.d1 p.dt F) (fboxes double p.q2 p.d2 p.dt F)
      (fun i => double.fl (fboxes double p.q1 p.d1 p.dt F i + fboxes double p.q2 p.d2 p.dt F i)) (p.fU double F) := by
  obtain ⟨vals, u, rfl, hlen, hg, hmF⟩ := hd.good hn
  have hseq := IRM.seq64 hc hp hok hpl hdt hM hin hin' hκ hmF hF
  obtain ⟨v0, hv0, -⟩ := (IRM.stepper R).times_ok (m.ready R vals u) (modelF R vals u) rfl vals.length (by simp)
    (fun i hi => by obtain ⟨x, hx, -⟩ := hseq i (by omega); exact ⟨x, hx⟩)
  have hm' := (IRM.simulate_good R m hg).trans hv0
  obtain ⟨vals', u', v, hg', hv, hI⟩ := IRM.simulate_ok hm'
  obtain ⟨h1, -⟩ := hg'
  cases h1
  have lA := hI.lA; have lB := hI.lB; have lC := hI.lC
  rw [modelF_length, hlen] at lA lB lC
  have key : ∀ i < n, ∃ x : F64 py × F64 py × F64 py, v.A[i]? = some x.1 ∧ v.B[i]? = some x.2.1 ∧ v.C[i]? = some x.2.2 ∧
      x.1.value = some (fboxes double p.q1 p.d1 p.dt F i) ∧ x.2.1.value = some (fboxes double p.q2 p.d2 p.dt F i) ∧
      x.2.2.value = some (p.fU double F i) ∧ |fboxes double p.q1 p.d1 p.dt F i| ≤ 2 * (p.q1 * M) ∧
      |fboxes double p.q2 p.d2 p.dt F i| ≤ 2 * (p.q2 * M) := by
    intro i hi
    obtain ⟨a, b, c, h1, h2, h3, h4⟩ := hI.done i (by omega)
    obtain ⟨x, hx, hx'⟩ := hseq i hi
    rw [h1] at hx
    cases hx
    exact ⟨_, h2, h3, h4, hx'⟩
  have sum : ∀ {i : ℕ}, |fboxes double p.q1 p.d1 p.dt F i| ≤ 2 * (p.q1 * M) →
      |fboxes double p.q2 p.d2 p.dt F i| ≤ 2 * (p.q2 * M) →
      |fboxes double p.q1 p.d1 p.dt F i + fboxes double p.q2 p.d2 p.dt F i| ≤ 2 ^ 1023 := by
    intro i h1 h2
    obtain ⟨-, -, hr'⟩ := hin'
    simp only [List.forall_mem_cons, List.not_mem_nil, IsEmpty.forall_iff, forall_const, and_true] at hr'
    obtain ⟨-, -, ⟨m3, o3⟩, -⟩ := hr'
    have hs : 0 ≤ (p.q1 + p.q2) * M := by have := hok.q1; have := hok.q2; positivity
    refine le_trans ?_ o3
    have := (abs_add_le _ _).trans (add_le_add h1 h2)
    linarith only [this, hs]
  refine ⟨_, v.A, v.B, List.zipWith (· + ·) v.A v.B, v.C, hm', by rw [hv]; rfl, ⟨lA, fun i hi => ?_⟩, ⟨lB, fun i hi => ?_⟩,
    ⟨by simp [lA, lB], fun i hi => ?_⟩, ⟨lC, fun i hi => ?_⟩⟩
  · obtain ⟨x, h1, h2, h3, h4, h5, h6, h7, h8⟩ := key i (by omega)
    rw [List.getElem?_eq_getElem hi] at h1
    rw [Option.some.inj h1]; exact h4
  · obtain ⟨x, h1, h2, h3, h4, h5, h6, h7, h8⟩ := key i (by omega)
    rw [List.getElem?_eq_getElem hi] at h2
    rw [Option.some.inj h2]; exact h5
  · have hi' : i < n := by rw [List.length_zipWith, lA, lB] at hi; omega
    obtain ⟨x, h1, h2, h3, h4, h5, h6, h7, h8⟩ := key i hi'
    rw [List.getElem?_eq_getElem (by omega)] at h1 h2
    rw [List.getElem_zipWith, Option.some.inj h1, Option.some.inj h2]
    exact F64.value_add h4 h5 (sum h7 h8)
  · obtain ⟨x, h1, h2, h3, h4, h5, h6, h7, h8⟩ := key i (by omega)
    rw [List.getElem?_eq_getElem hi] at h3
    rw [Option.some.inj h3]; exact h6
end
end TwoLayer
