import Verif.Spec.Rounding
import Verif.Proofs.TLMath
import Verif.Proofs.Coherent
import Mathlib.Data.Int.Log

/-! # Rounding error analysis -/

set_option linter.unusedSimpArgs false
set_option linter.unusedSectionVars false

namespace TwoLayer

/-! ## binary64 -/

theorem ulp64_pos (x : ℝ) : 0 < ulp64 x := zpow_pos (by norm_num) _

theorem ulp64_le {x : ℝ} (hx : x ≠ 0) : ulp64 x / 2 ≤ 2⁻¹ ^ 53 * max |x| (2⁻¹ ^ 1022) := by
  have h2 : (2 : ℝ) ≠ 0 := by norm_num
  unfold ulp64
  rw [zpow_sub₀ h2]
  have h1 : (2 : ℝ) ^ (max (Int.log 2 |x|) (-1022)) ≤ max |x| (2⁻¹ ^ 1022) := by
    rcases le_total (Int.log 2 |x|) (-1022) with h | h
    · rw [max_eq_right h]
      refine le_max_of_le_right ?_
      rw [zpow_neg, inv_pow]; exact le_of_eq (by norm_cast)
    · rw [max_eq_left h]
      exact le_max_of_le_left (Int.zpow_log_le_self (by norm_num) (abs_pos.mpr hx))
  have h3 : ((2 : ℝ) ^ (52 : ℤ)) = 2 ^ 52 := by norm_cast
  rw [h3]
  calc (2 : ℝ) ^ (max (Int.log 2 |x|) (-1022)) / 2 ^ 52 / 2 = 2⁻¹ ^ 53 * (2 : ℝ) ^ (max (Int.log 2 |x|) (-1022)) := by
        rw [inv_pow]; field_simp
    _ ≤ _ := by gcongr

theorem roundEven_intCast (n : ℤ) : roundEven n = n := by
  have h : ¬ Int.fract (n : ℝ) = 1 / 2 := by rw [Int.fract_intCast]; norm_num
  rw [roundEven, if_neg h, round_intCast]

theorem roundEven_natCast (n : ℕ) : roundEven n = n := by
  have := roundEven_intCast n
  exact_mod_cast this

theorem abs_sub_roundEven (x : ℝ) : |x - roundEven x| ≤ 1 / 2 := by
  unfold roundEven
  split
  · rename_i h
    have hx : x = ⌊x⌋ + 1 / 2 := by rw [← h]; exact (Int.floor_add_fract x).symm
    split
    · rw [show x - (⌊x⌋ : ℤ) = 1 / 2 by linarith, abs_of_pos (by norm_num)]
    · push_cast
      rw [show x - ((⌊x⌋ : ℝ) + 1) = -(1 / 2) by linarith, abs_neg, abs_of_pos (by norm_num)]
  · exact abs_sub_round x

theorem roundEven_neg (x : ℝ) : roundEven (-x) = -roundEven x := by
  by_cases h : Int.fract x = 1 / 2
  · have hx : x = ⌊x⌋ + 1 / 2 := by rw [← h]; exact (Int.floor_add_fract x).symm
    have hf : ⌊-x⌋ = -⌊x⌋ - 1 := by
      rw [Int.floor_eq_iff]
      push_cast
      constructor <;> linarith
    have h' : Int.fract (-x) = 1 / 2 := by
      rw [Int.fract, hf]
      push_cast
      linarith
    rw [roundEven, roundEven, if_pos h, if_pos h', hf]
    by_cases he : Even ⌊x⌋
    · have : ¬ Even (-⌊x⌋ - 1) := by
        rw [Int.not_even_iff_odd]
        obtain ⟨k, hk⟩ := he
        exact ⟨-k - 1, by omega⟩
      rw [if_pos he, if_neg this]; ring
    · have : Even (-⌊x⌋ - 1) := by
        rw [Int.not_even_iff_odd] at he
        obtain ⟨k, hk⟩ := he
        exact ⟨-k - 1, by omega⟩
      rw [if_neg he, if_pos this]; ring
  · have h' : ¬ Int.fract (-x) = 1 / 2 := by
      intro hc
      by_cases h0 : Int.fract x = 0
      · rw [Int.fract_neg_eq_zero.mpr h0] at hc
        norm_num at hc
      · rw [Int.fract_neg h0] at hc
        exact h (by linarith)
    rw [roundEven, roundEven, if_neg h, if_neg h', round_eq, round_eq, Int.floor_eq_iff]
    have h1 := Int.floor_le (x + 1 / 2)
    have h2 := Int.lt_floor_add_one (x + 1 / 2)
    push_cast
    refine ⟨by linarith, ?_⟩
    have hne : (⌊x + 1 / 2⌋ : ℝ) ≠ x + 1 / 2 := by
      intro hc
      apply h
      have hx : x = ((⌊x + 1 / 2⌋ - 1 : ℤ) : ℝ) + 1 / 2 := by push_cast; linarith
      rw [hx, Int.fract_intCast_add, Int.fract_eq_self]
      norm_num
    have := lt_of_le_of_ne h1 hne
    linarith

theorem ulp64_neg (x : ℝ) : ulp64 (-x) = ulp64 x := by unfold ulp64; rw [abs_neg]

theorem near64_neg (x : ℝ) : near64 (-x) = -near64 x := by
  unfold near64
  rw [ulp64_neg, neg_div, roundEven_neg]
  push_cast; ring

theorem near64_zero : near64 0 = 0 := by
  have := roundEven_intCast 0
  simp only [Int.cast_zero] at this
  simp [near64, this]

theorem round_err (x : ℝ) : |near64 x - x| ≤ 2⁻¹ ^ 53 * max |x| (2⁻¹ ^ 1022) := by
  by_cases hx : x = 0
  · subst hx; simp [near64_zero]
  have hu := ulp64_pos x
  have h1 := abs_sub_roundEven (x / ulp64 x)
  calc |near64 x - x| = |x / ulp64 x - roundEven (x / ulp64 x)| * ulp64 x := by
        rw [near64, ← abs_of_pos hu, ← abs_mul, abs_of_pos hu, sub_mul, div_mul_cancel₀ _ hu.ne', abs_sub_comm]
    _ ≤ 1 / 2 * ulp64 x := by gcongr
    _ = ulp64 x / 2 := by ring
    _ ≤ _ := ulp64_le hx

theorem roundEven_le (t : ℝ) (z : ℤ) : |t - roundEven t| ≤ |t - z| := by
  by_cases h : Int.fract t = 1 / 2
  · refine (abs_sub_roundEven t).trans ?_
    have ht : t = ⌊t⌋ + 1 / 2 := by rw [← h]; exact (Int.floor_add_fract t).symm
    rw [le_abs]
    rcases le_or_gt z ⌊t⌋ with hz | hz
    · left
      have : (z : ℝ) ≤ ⌊t⌋ := by exact_mod_cast hz
      linarith
    · right
      have : (⌊t⌋ : ℝ) + 1 ≤ z := by exact_mod_cast hz
      linarith
  · rw [roundEven, if_neg h]
    exact round_le t z

/-- the exponent of the spacing -/
theorem ulp64_eq (x : ℝ) : ∃ E : ℤ, ulp64 x = (2 : ℝ) ^ E ∧ -1074 ≤ E ∧ (E = -1074 ∨ E = Int.log 2 |x| - 52) ∧
    |x| < (2 : ℝ) ^ 53 * (2 : ℝ) ^ E := by
  refine ⟨_, rfl, by omega, ?_, ?_⟩
  · rcases le_total (Int.log 2 |x|) (-1022) with h | h
    · left; omega
    · right; omega
  · have h1 : |x| < (2 : ℝ) ^ (Int.log 2 |x| + 1) := Int.lt_zpow_succ_log_self (by norm_num) _
    refine h1.trans_le ?_
    have : ((2 : ℝ) ^ 53) = (2 : ℝ) ^ (53 : ℤ) := by norm_cast
    rw [this, ← zpow_add₀ (by norm_num)]
    exact zpow_le_zpow_right₀ (by norm_num) (by omega)

theorem near64_isDouble (x : ℝ) : IsDouble (near64 x) := by
  obtain ⟨E, hE, h1, h2, h3⟩ := ulp64_eq x
  have hu := ulp64_pos x
  set k := roundEven (x / ulp64 x) with hk
  have hkx : |x / ulp64 x - k| ≤ 1 / 2 := abs_sub_roundEven _
  have hq : |x / ulp64 x| < 2 ^ 53 := by
    rw [abs_div, abs_of_pos hu, div_lt_iff₀ hu, hE]; exact h3
  have hk' : |(k : ℝ)| < 2 ^ 53 + 1 := by
    have : |(k : ℝ)| ≤ |x / ulp64 x| + |x / ulp64 x - k| := by
      calc |(k : ℝ)| = |x / ulp64 x - (x / ulp64 x - k)| := by congr 1; ring
        _ ≤ _ := abs_sub _ _
    linarith
  have hk2 : |k| < 2 ^ 53 + 1 := by exact_mod_cast hk'
  have hval : near64 x = k * (2 : ℝ) ^ E := by rw [near64, hE]; rw [← hE]
  by_cases hlt : |k| < 2 ^ 53
  · exact ⟨k, E, hlt, h1, hval⟩
  · have habs : |k| = 2 ^ 53 := by omega
    have hp : ((2 : ℝ) ^ 53) * (2 : ℝ) ^ E = (2 : ℝ) ^ 52 * (2 : ℝ) ^ (E + 1) := by
      rw [zpow_add₀ (by norm_num)]; ring
    rcases abs_eq (by norm_num : (0 : ℤ) ≤ 2 ^ 53) |>.mp habs with hc | hc
    · refine ⟨2 ^ 52, E + 1, by norm_num, by omega, ?_⟩
      rw [hval, hc, show (((2 ^ 53 : ℤ)) : ℝ) = 2 ^ 53 by norm_num, show (((2 ^ 52 : ℤ)) : ℝ) = 2 ^ 52 by norm_num]
      exact hp
    · refine ⟨-2 ^ 52, E + 1, by norm_num, by omega, ?_⟩
      rw [hval, hc, show ((-(2 ^ 53 : ℤ) : ℤ) : ℝ) = -2 ^ 53 by norm_num, show ((-2 ^ 52 : ℤ) : ℝ) = -2 ^ 52 by norm_num,
        neg_mul, neg_mul, hp]

/-- rounding picks a closest binary64 number -/
theorem near64_nearest (x : ℝ) {y : ℝ} (hy : IsDouble y) : |x - near64 x| ≤ |x - y| := by
  by_cases hx : x = 0
  · subst hx
    rw [near64_zero, sub_zero, abs_zero]; exact abs_nonneg _
  obtain ⟨E, hE, h1, h2, h3⟩ := ulp64_eq x
  have hu := ulp64_pos x
  have mult : ∀ z : ℤ, |x - near64 x| ≤ |x - z * ulp64 x| := by
    intro z
    have h := roundEven_le (x / ulp64 x) z
    have e : ∀ w : ℝ, |x - w * ulp64 x| = |x / ulp64 x - w| * ulp64 x := by
      intro w
      rw [← abs_of_pos hu, ← abs_mul, abs_of_pos hu, sub_mul, div_mul_cancel₀ _ hu.ne']
    rw [near64, e, e]
    gcongr
  obtain ⟨k, e, hk, he, rfl⟩ := hy
  rcases le_or_gt E e with hle | hlt
  · obtain ⟨j, hj⟩ : ∃ j : ℕ, e = E + j := ⟨(e - E).toNat, by omega⟩
    have := mult (k * 2 ^ j)
    rw [hE] at this
    rw [hj, zpow_add₀ (by norm_num), zpow_natCast]
    push_cast at this
    rwa [mul_assoc, mul_comm ((2 : ℝ) ^ j)] at this
  · have hL : E = Int.log 2 |x| - 52 := h2.resolve_left (by omega)
    have hpos : (2 : ℝ) ^ 52 * ulp64 x ≤ |x| := by
      have := Int.zpow_log_le_self (b := 2) (by norm_num) (abs_pos.mpr hx)
      have e52 : ((2 : ℝ) ^ 52) = (2 : ℝ) ^ (52 : ℤ) := by norm_cast
      rw [hE, hL, e52, ← zpow_add₀ (by norm_num)]
      rw [show (52 : ℤ) + (Int.log 2 |x| - 52) = Int.log 2 |x| by ring]
      exact_mod_cast this
    have hyb : |(k : ℝ) * (2 : ℝ) ^ e| ≤ 2 ^ 52 * ulp64 x := by
      have hk' : |(k : ℝ)| ≤ 2 ^ 53 := by
        have := hk.le
        exact_mod_cast this
      have h2e : (2 : ℝ) ^ e ≤ ulp64 x / 2 := by
        have : ulp64 x / 2 = (2 : ℝ) ^ (E - 1) := by rw [hE, zpow_sub₀ (by norm_num)]; norm_num
        rw [this]
        exact zpow_le_zpow_right₀ (by norm_num) (by omega)
      rw [abs_mul, abs_of_pos (zpow_pos (by norm_num : (0 : ℝ) < 2) e)]
      calc |(k : ℝ)| * (2 : ℝ) ^ e ≤ 2 ^ 53 * (ulp64 x / 2) := by gcongr
        _ = _ := by ring
    have key : |x| - 2 ^ 52 * ulp64 x ≤ |x - k * (2 : ℝ) ^ e| := by
      have := abs_sub_abs_le_abs_sub x (k * (2 : ℝ) ^ e)
      linarith
    refine le_trans ?_ key
    rcases le_total 0 x with h0 | h0
    · have := mult (2 ^ 52)
      rw [show (((2 ^ 52 : ℤ)) : ℝ) = 2 ^ 52 by norm_num] at this
      rw [abs_of_nonneg h0] at hpos ⊢
      rwa [abs_of_nonneg (by linarith : 0 ≤ x - 2 ^ 52 * ulp64 x)] at this
    · have := mult (-2 ^ 52)
      rw [show ((-2 ^ 52 : ℤ) : ℝ) = -2 ^ 52 by norm_num] at this
      rw [abs_of_nonpos h0] at hpos ⊢
      have e2 : |x - -(2 : ℝ) ^ 52 * ulp64 x| = -x - 2 ^ 52 * ulp64 x := by
        rw [abs_of_nonpos (by linarith)]; ring
      rwa [e2] at this

theorem near64_of_isDouble {y : ℝ} (hy : IsDouble y) : near64 y = y := by
  have := near64_nearest y hy
  rw [sub_self, abs_zero] at this
  have := abs_eq_zero.mp (le_antisymm this (abs_nonneg _))
  linarith

theorem double_accurate (Ω : ℝ) : double.Accurate (2⁻¹ ^ 53) (2⁻¹ ^ 1022) Ω where
  zero := near64_zero
  fl x _ := round_err x
  exp x _ := by
    have := round_err (Real.exp x)
    rwa [abs_of_pos (Real.exp_pos x)] at this
  sqrt x _ := by
    have := round_err (√x)
    rwa [abs_of_nonneg (Real.sqrt_nonneg x)] at this

/-- integers below `2⁵³` are binary64 numbers -/
theorem double_int {n : ℕ} (hn : n < 2 ^ 53) : double.fl n = n := by
  by_cases h0 : n = 0
  · subst h0; simp [double, near64_zero]
  have hpos : (0 : ℝ) < n := by exact_mod_cast Nat.pos_of_ne_zero h0
  have hlog : Int.log 2 (n : ℝ) < 53 := by
    rw [← Int.lt_zpow_iff_log_lt (by norm_num) hpos]
    have : ((n : ℕ) : ℝ) < ((2 ^ 53 : ℕ) : ℝ) := by exact_mod_cast hn
    exact_mod_cast this
  have hlog0 : 0 ≤ Int.log 2 (n : ℝ) := by
    rw [← Int.zpow_le_iff_le_log (by norm_num) hpos]
    simp; exact Nat.pos_of_ne_zero h0
  obtain ⟨k, hk⟩ : ∃ k : ℕ, Int.log 2 (n : ℝ) = 52 - k := ⟨(52 - Int.log 2 (n : ℝ)).toNat, by omega⟩
  have hu : ulp64 (n : ℝ) = ((2 : ℝ) ^ k)⁻¹ := by
    unfold ulp64
    rw [abs_of_pos hpos, max_eq_left (by omega), hk, ← zpow_natCast, ← zpow_neg]
    congr 1; ring
  show (roundEven ((n : ℝ) / ulp64 n) : ℝ) * ulp64 n = n
  rw [hu, div_inv_eq_mul]
  have : (n : ℝ) * 2 ^ k = ((n * 2 ^ k : ℕ) : ℝ) := by push_cast; rfl
  rw [this, roundEven_natCast]
  push_cast
  field_simp

/-! ## The error calculus -/

/-- `x` approximates `X`, of size at most `B`, after at most `k` roundings in a row -/
def Ap (u : ℝ) (k : ℕ) (X B x : ℝ) : Prop := |X| ≤ B ∧ |x - X| ≤ ((1 + u) ^ k - 1) * B

namespace Ap
variable {r : Rounding} {u μ Ω : ℝ} {k l : ℕ} {X Y B B' x y : ℝ}

theorem exact (h : |x| ≤ B) : Ap u 0 x B x := ⟨h, by simp⟩

theorem B_nonneg (h : Ap u k X B x) : 0 ≤ B := (abs_nonneg _).trans h.1

theorem size (h : Ap u k X B x) : |x| ≤ (1 + u) ^ k * B := by
  calc |x| = |X + (x - X)| := by congr 1; ring
    _ ≤ |X| + |x - X| := abs_add_le _ _
    _ ≤ B + ((1 + u) ^ k - 1) * B := add_le_add h.1 h.2
    _ = _ := by ring

theorem mono (hu : 0 ≤ u) (h : Ap u k X B x) (hkl : k ≤ l) (hB : B ≤ B') : Ap u l X B' x := by
  have hb := h.B_nonneg
  refine ⟨h.1.trans hB, h.2.trans ?_⟩
  have h1 : (1 + u) ^ k ≤ (1 + u) ^ l := pow_le_pow_right₀ (by linarith) hkl
  have h2 : 1 ≤ (1 + u) ^ k := one_le_pow₀ (by linarith)
  calc ((1 + u) ^ k - 1) * B ≤ ((1 + u) ^ l - 1) * B := by gcongr
    _ ≤ _ := by gcongr; linarith

theorem round (hr : r.Accurate u μ Ω) (hu : 0 ≤ u) (h : Ap u k X B x) (hμ : μ ≤ B) (hΩ : (1 + u) ^ k * B ≤ Ω) :
    Ap u (k + 1) X B (r.fl x) := by
  have hb := h.B_nonneg
  have h1 : 1 ≤ (1 + u) ^ k := one_le_pow₀ (by linarith)
  have hs := h.size
  have hm : max |x| μ ≤ (1 + u) ^ k * B := max_le hs (hμ.trans (le_mul_of_one_le_left hb h1))
  have := hr.fl x (hs.trans hΩ)
  refine ⟨h.1, ?_⟩
  calc |r.fl x - X| = |(r.fl x - x) + (x - X)| := by congr 1; ring
    _ ≤ |r.fl x - x| + |x - X| := abs_add_le _ _
    _ ≤ u * ((1 + u) ^ k * B) + ((1 + u) ^ k - 1) * B := add_le_add (this.trans (by gcongr)) h.2
    _ = _ := by rw [pow_succ]; ring

theorem add (h : Ap u k X B x) (h' : Ap u k Y B' y) : Ap u k (X + Y) (B + B') (x + y) := by
  refine ⟨(abs_add_le _ _).trans (add_le_add h.1 h'.1), ?_⟩
  calc |x + y - (X + Y)| = |(x - X) + (y - Y)| := by congr 1; ring
    _ ≤ |x - X| + |y - Y| := abs_add_le _ _
    _ ≤ _ := by have := h.2; have := h'.2; rw [mul_add]; linarith

theorem neg (h : Ap u k X B x) : Ap u k (-X) B (-x) :=
  ⟨by rw [abs_neg]; exact h.1, by rw [show -x - -X = -(x - X) by ring, abs_neg]; exact h.2⟩

theorem sub (h : Ap u k X B x) (h' : Ap u k Y B' y) : Ap u k (X - Y) (B + B') (x - y) := by
  rw [sub_eq_add_neg, sub_eq_add_neg]; exact h.add h'.neg

theorem mul (hu : 0 ≤ u) (h : Ap u k X B x) (h' : Ap u l Y B' y) : Ap u (k + l) (X * Y) (B * B') (x * y) := by
  have hb := h.B_nonneg; have hb' := h'.B_nonneg
  have h1 : 1 ≤ (1 + u) ^ k := one_le_pow₀ (by linarith)
  have h2 : 1 ≤ (1 + u) ^ l := one_le_pow₀ (by linarith)
  refine ⟨by rw [abs_mul]; exact mul_le_mul h.1 h'.1 (abs_nonneg _) hb, ?_⟩
  calc |x * y - X * Y| = |x * (y - Y) + (x - X) * Y| := by congr 1; ring
    _ ≤ |x * (y - Y)| + |(x - X) * Y| := abs_add_le _ _
    _ = |x| * |y - Y| + |x - X| * |Y| := by rw [abs_mul, abs_mul]
    _ ≤ (1 + u) ^ k * B * (((1 + u) ^ l - 1) * B') + ((1 + u) ^ k - 1) * B * B' := by
        have : 0 ≤ ((1 + u) ^ k - 1) * B := mul_nonneg (by linarith) hb
        have := h.size; have := h'.2; have := h.2; have := h'.1
        gcongr
    _ = _ := by rw [pow_add]; ring

/-- multiplication by an exact positive number -/
theorem smul {c : ℝ} (hc : 0 ≤ c) (h : Ap u k X B x) : Ap u k (c * X) (c * B) (c * x) := by
  refine ⟨by rw [abs_mul, abs_of_nonneg hc]; exact mul_le_mul_of_nonneg_left h.1 hc, ?_⟩
  rw [← mul_sub, abs_mul, abs_of_nonneg hc]
  calc c * |x - X| ≤ c * (((1 + u) ^ k - 1) * B) := mul_le_mul_of_nonneg_left h.2 hc
    _ = _ := by ring

theorem div {c : ℝ} (hc : 0 < c) (h : Ap u k X B x) : Ap u k (X / c) (B / c) (x / c) := by
  have := h.smul (inv_nonneg.mpr hc.le)
  simpa [div_eq_inv_mul] using this
end Ap

theorem gamma7 {u : ℝ} (hu : 0 ≤ u) (hu1 : u ≤ 1 / 100) : (1 + u) ^ 7 - 1 ≤ 8 * u := by
  have : (1 + u) ^ 7 - 1 = u * (7 + 21 * u + 35 * u ^ 2 + 35 * u ^ 3 + 21 * u ^ 4 + 7 * u ^ 5 + u ^ 6) := by ring
  rw [this, mul_comm 8 u]
  apply mul_le_mul_of_nonneg_left _ hu
  have h2 : u ^ 2 ≤ u * (1 / 100) := by nlinarith
  have h3 : u ^ 3 ≤ u ^ 2 := pow_le_pow_of_le_one hu (by linarith) (by norm_num)
  have h4 : u ^ 4 ≤ u ^ 2 := pow_le_pow_of_le_one hu (by linarith) (by norm_num)
  have h5 : u ^ 5 ≤ u ^ 2 := pow_le_pow_of_le_one hu (by linarith) (by norm_num)
  have h6 : u ^ 6 ≤ u ^ 2 := pow_le_pow_of_le_one hu (by linarith) (by norm_num)
  linarith

theorem pow_le_two {u : ℝ} (hu : 0 ≤ u) (hu1 : u ≤ 1 / 100) {k : ℕ} (hk : k ≤ 7) : (1 + u) ^ k ≤ 2 := by
  have h1 : (1 + u) ^ k ≤ (1 + u) ^ 7 := pow_le_pow_right₀ (by linarith) hk
  have := gamma7 hu hu1
  linarith

end TwoLayer
