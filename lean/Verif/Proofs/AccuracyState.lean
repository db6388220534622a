import Verif.Spec.Accuracy
import Verif.Proofs.Sensitivity
import Mathlib.Analysis.Calculus.MeanValue
import Mathlib.Analysis.Calculus.Deriv.MeanValue

/-!
# Accuracy with state-dependent feedback (real numbers only)
-/

set_option linter.unusedSimpArgs false

namespace TwoLayer
open Set

/-- two continuous functions that turn back whenever one of them reaches `α` stay below `α` -/
theorem stay_below {x y : ℝ → ℝ} {S α : ℝ} (hx : ContinuousOn x (Icc 0 S)) (hy : ContinuousOn y (Icc 0 S))
    (x0 : x 0 < α) (y0 : y 0 < α)
    (h1 : ∀ t ∈ Ioc 0 S, x t = α → y t ≤ α → ∃ s ∈ Ico 0 t, x t ≤ x s)
    (h2 : ∀ t ∈ Ioc 0 S, y t = α → x t < α → ∃ s ∈ Ico 0 t, y t ≤ y s) :
    ∀ t ∈ Icc 0 S, x t < α ∧ y t < α := by
  by_contra hcon
  push Not at hcon
  obtain ⟨t1, ht1, hc⟩ := hcon
  set A : Set ℝ := {t ∈ Icc 0 S | α ≤ max (x t) (y t)}
  have hAc : IsClosed A := by
    have := (hx.sup hy).preimage_isClosed_of_isClosed isClosed_Icc (isClosed_Ici (a := α))
    exact this
  have hAne : A.Nonempty := ⟨t1, ht1, by
    by_cases h : x t1 < α
    · exact (hc h).trans (le_max_right _ _)
    · exact (not_lt.mp h).trans (le_max_left _ _)⟩
  have hAb : BddBelow A := ⟨0, fun t ht => ht.1.1⟩
  have hmem := hAc.csInf_mem hAne hAb
  set t0 := sInf A
  have hbefore : ∀ s ∈ Ico 0 t0, x s < α ∧ y s < α := by
    intro s hs
    by_contra hn
    have : s ∈ A := ⟨⟨hs.1, hs.2.le.trans hmem.1.2⟩, by
      by_contra hlt
      exact hn (max_lt_iff.mp (not_le.mp hlt))⟩
    exact absurd (csInf_le hAb this) (not_le.mpr hs.2)
  have hpos : 0 < t0 := by
    rcases lt_or_eq_of_le hmem.1.1 with h | h
    · exact h
    · exfalso
      have := hmem.2
      rw [← h] at this
      exact absurd (max_lt x0 y0) (not_lt.mpr this)
  have hsub : Icc 0 t0 ⊆ Icc 0 S := Icc_subset_Icc le_rfl hmem.1.2
  have hxle : x t0 ≤ α := by
    by_contra hgt
    obtain ⟨s, hs, hse⟩ := intermediate_value_Icc hpos.le (hx.mono hsub) ⟨x0.le, (not_le.mp hgt).le⟩
    have hne : s ≠ t0 := by rintro rfl; exact hgt hse.le
    exact absurd hse (hbefore s ⟨hs.1, lt_of_le_of_ne hs.2 hne⟩).1.ne
  have hyle : y t0 ≤ α := by
    by_contra hgt
    obtain ⟨s, hs, hse⟩ := intermediate_value_Icc hpos.le (hy.mono hsub) ⟨y0.le, (not_le.mp hgt).le⟩
    have hne : s ≠ t0 := by rintro rfl; exact hgt hse.le
    exact absurd hse (hbefore s ⟨hs.1, lt_of_le_of_ne hs.2 hne⟩).2.ne
  rcases lt_or_eq_of_le hxle with hlt | heq
  · have hye : y t0 = α := by
      rcases le_max_iff.mp hmem.2 with h | h
      · exact absurd h (not_le.mpr hlt)
      · exact le_antisymm hyle h
    obtain ⟨s, hs, hle⟩ := h2 t0 ⟨hpos, hmem.1.2⟩ hye hlt
    linarith [(hbefore s hs).2]
  · obtain ⟨s, hs, hle⟩ := h1 t0 ⟨hpos, hmem.1.2⟩ heq hyle
    linarith [(hbefore s hs).1]

/-- the step that ends at or after `t` -/
theorem step_of {dt : ℝ} (hdt : 0 < dt) {n : ℕ} {t : ℝ} (ht : t ∈ Ioc 0 (n * dt)) :
    ∃ k < n, (k : ℝ) * dt < t ∧ t ≤ (k + 1) * dt := by
  induction n with
  | zero => simp only [Nat.cast_zero, zero_mul] at ht; exact absurd ht.1 (not_lt.mpr ht.2)
  | succ n ih =>
    by_cases h : t ≤ n * dt
    · obtain ⟨k, hk, h'⟩ := ih ⟨ht.1, h⟩
      exact ⟨k, by omega, h'⟩
    · refine ⟨n, by omega, not_le.mp h, ?_⟩
      have := ht.2
      push_cast at this
      exact this

/-- a function whose derivative is not positive just before `t` was no smaller just before `t` -/
theorem back {x φ : ℝ → ℝ} {a t S : ℝ} (ha : 0 ≤ a) (hat : a < t) (htS : t ≤ S) (hx : ContinuousOn x (Icc 0 S))
    (hφ : ContinuousOn φ (Icc 0 S)) (hφt : φ t < 0)
    (hd : ∀ u ∈ Ioo a t, ∃ x', HasDerivAt x x' u ∧ (φ u < 0 → x' ≤ 0)) : ∃ s ∈ Ico 0 t, x t ≤ x s := by
  have hmem : t ∈ Icc 0 S := ⟨by linarith, htS⟩
  have hev : ∀ᶠ u in nhdsWithin t (Icc 0 S), φ u < 0 := (hφ t hmem).eventually_lt_const hφt
  rw [Filter.Eventually, Metric.mem_nhdsWithin_iff] at hev
  obtain ⟨ε, hε, hball⟩ := hev
  set s := max ((a + t) / 2) (t - ε / 2)
  have hst : s < t := max_lt (by linarith) (by linarith)
  have has : a < s := lt_of_lt_of_le (by linarith) (le_max_left _ _)
  have hse : t - ε < s := lt_of_lt_of_le (by linarith) (le_max_right _ _)
  refine ⟨s, ⟨by linarith, hst⟩, ?_⟩
  have hanti : AntitoneOn x (Icc s t) := by
    refine antitoneOn_of_deriv_nonpos (convex_Icc s t) (hx.mono (Icc_subset_Icc (by linarith) htS)) ?_ ?_
    · intro u hu
      rw [interior_Icc] at hu
      obtain ⟨x', h1, -⟩ := hd u ⟨has.trans hu.1, hu.2⟩
      exact h1.differentiableAt.differentiableWithinAt
    · intro u hu
      rw [interior_Icc] at hu
      obtain ⟨x', h1, h2⟩ := hd u ⟨has.trans hu.1, hu.2⟩
      rw [h1.deriv]
      refine h2 (hball ⟨?_, ?_⟩)
      · rw [Metric.mem_ball, Real.dist_eq, abs_lt]
        exact ⟨by linarith [hu.1], by linarith [hu.2]⟩
      · exact ⟨by linarith [hu.1], by linarith [hu.2]⟩
  exact hanti ⟨le_rfl, hst.le⟩ ⟨hst.le, le_rfl⟩ hst.le

namespace TwoLayerStateForced
variable {p : TLPar} {n : ℕ} {f x y : ℝ → ℝ}

theorem neg (h : TwoLayerStateForced p n f x y) :
    TwoLayerStateForced { p with a := -p.a } n (fun t => -f t) (fun t => -x t) (fun t => -y t) := by
  refine ⟨by simp [h.rest], h.contT.neg, h.contTD.neg, fun k hk t ht => ?_⟩
  obtain ⟨x', y', h1, h2, h3, h4⟩ := h.ode k hk t ht
  refine ⟨-x', -y', h1.neg, h2.neg, ?_, ?_⟩
  · simp only; rw [mul_neg, h3]; ring
  · simp only; rw [mul_neg, h4]; ring

theorem upper (h : TwoLayerStateForced p n f x y) (hC : 0 < p.C) (hD : 0 < p.D) (he : 0 ≤ p.e) (hh : 0 ≤ p.h)
    (hdt : 0 < p.dt) {θ M : ℝ} (hθ : 0 ≤ θ) (hM : M ≤ (p.l - |p.a| * θ) * θ) (hμ : 0 < p.l - 2 * |p.a| * θ)
    (hf : ∀ k < n, ∀ t ∈ Ioo (k * p.dt) ((k + 1) * p.dt), f t ≤ M) :
    ∀ t ∈ Icc 0 (n * p.dt), x t ≤ θ ∧ y t ≤ θ := by
  have key : ∀ η > 0, |p.a| * η < p.l - 2 * |p.a| * θ → ∀ t ∈ Icc 0 (n * p.dt), x t < θ + η ∧ y t < θ + η := by
    intro η hη hsm
    have hg : M < (p.l - p.a * (θ + η)) * (θ + η) := by
      have h1 : p.a ≤ |p.a| := le_abs_self _
      have h2 : (p.l - |p.a| * (θ + η)) * (θ + η) ≤ (p.l - p.a * (θ + η)) * (θ + η) := by
        gcongr
      have h3 : 0 < η * (p.l - 2 * |p.a| * θ - |p.a| * η) := mul_pos hη (by linarith)
      linarith
    refine stay_below h.contT h.contTD (by rw [h.rest.1]; linarith) (by rw [h.rest.2]; linarith) ?_ ?_
    · intro t ht hxt hyt
      obtain ⟨k, hk, k1, k2⟩ := step_of hdt ht
      have hk0 : 0 ≤ (k : ℝ) * p.dt := by positivity
      refine back (a := k * p.dt) (φ := fun u => M - (p.l - p.a * x u) * x u - p.e * p.h * (x u - y u)) hk0 k1 ht.2 h.contT ?_ ?_ ?_
      · exact ((continuousOn_const.sub ((continuousOn_const.sub (h.contT.const_mul _)).mul h.contT))).sub
          ((h.contT.sub h.contTD).const_mul _)
      · simp only [hxt]
        have : 0 ≤ p.e * p.h * (θ + η - y t) := mul_nonneg (mul_nonneg he hh) (by linarith)
        linarith
      · intro u hu
        have hu' : u ∈ Ioo (k * p.dt) ((k + 1) * p.dt) := ⟨hu.1, hu.2.trans_le k2⟩
        obtain ⟨x', y', d1, d2, e1, e2⟩ := h.ode k hk u hu'
        refine ⟨x', d1, fun hneg => ?_⟩
        have hfu := hf k hk u hu'
        by_contra hx'
        have := mul_pos hC (not_le.mp hx')
        linarith
    · intro t ht hyt hxt
      obtain ⟨k, hk, k1, k2⟩ := step_of hdt ht
      have hk0 : 0 ≤ (k : ℝ) * p.dt := by positivity
      refine back (a := k * p.dt) (φ := fun u => x u - y u) hk0 k1 ht.2 h.contTD (h.contT.sub h.contTD) (by linarith) ?_
      intro u hu
      obtain ⟨x', y', d1, d2, e1, e2⟩ := h.ode k hk u ⟨hu.1, hu.2.trans_le k2⟩
      refine ⟨y', d2, fun hneg => ?_⟩
      by_contra hy'
      have := mul_pos hD (not_le.mp hy')
      have := mul_nonpos_of_nonneg_of_nonpos hh hneg.le
      linarith
  intro t ht
  have hε : ∃ η0 > 0, |p.a| * η0 < p.l - 2 * |p.a| * θ := by
    refine ⟨(p.l - 2 * |p.a| * θ) / (|p.a| + 1), by positivity, ?_⟩
    rw [← mul_div_assoc, div_lt_iff₀ (by positivity)]
    nlinarith [abs_nonneg p.a]
  obtain ⟨η0, hη0, hsm⟩ := hε
  have : ∀ η > 0, x t ≤ θ + η ∧ y t ≤ θ + η := by
    intro η hη
    have hm : 0 < min η η0 := lt_min hη hη0
    have := key (min η η0) hm ((mul_le_mul_of_nonneg_left (min_le_right _ _) (abs_nonneg _)).trans_lt hsm) t ht
    exact ⟨this.1.le.trans (by linarith [min_le_left η η0]), this.2.le.trans (by linarith [min_le_left η η0])⟩
  exact ⟨le_of_forall_pos_le_add fun η hη => (this η hη).1, le_of_forall_pos_le_add fun η hη => (this η hη).2⟩

theorem bounded (h : TwoLayerStateForced p n f x y) (hC : 0 < p.C) (hD : 0 < p.D) (he : 0 ≤ p.e) (hh : 0 ≤ p.h)
    (hdt : 0 < p.dt) {θ M : ℝ} (hθ : 0 ≤ θ) (hM : M ≤ (p.l - |p.a| * θ) * θ) (hμ : 0 < p.l - 2 * |p.a| * θ)
    (hf : ∀ k < n, ∀ t ∈ Ioo (k * p.dt) ((k + 1) * p.dt), |f t| ≤ M) :
    ∀ t ∈ Icc 0 (n * p.dt), |x t| ≤ θ ∧ |y t| ≤ θ := by
  intro t ht
  have u1 := h.upper hC hD he hh hdt hθ hM hμ (fun k hk t ht => (abs_le.mp (hf k hk t ht)).2) t ht
  have u2 := h.neg.upper hC hD he hh hdt hθ (M := M) (by simpa using hM) (by simpa using hμ)
    (fun k hk t ht => by have := (abs_le.mp (hf k hk t ht)).1; linarith) t ht
  exact ⟨abs_le.mpr ⟨by linarith [u2.1], u1.1⟩, abs_le.mpr ⟨by linarith [u2.2], u1.2⟩⟩

/-- the equations over one step, up to the truncation errors -/
theorem step (h : TwoLayerStateForced p n f x y) (hC : 0 < p.C) (hD : 0 < p.D) (he : 0 ≤ p.e) (hh : 0 ≤ p.h)
    (hl : 0 ≤ p.l) (hdt : 0 < p.dt) {θ M δ : ℝ} (hθ : 0 ≤ θ) (hM : M ≤ (p.l - |p.a| * θ) * θ)
    (hμ : 0 < p.l - 2 * |p.a| * θ) (hf : ∀ k < n, ∀ t ∈ Ioo (k * p.dt) ((k + 1) * p.dt), |f t| ≤ M) {F : ℕ → ℝ}
    (hs : Samples F f p.dt n δ) {Kx KD : ℝ} (hKx : 2 * (p.l + p.e * p.h) * θ ≤ p.C * Kx) (hKD : 2 * p.h * θ ≤ p.D * KD)
    {k : ℕ} (hk : k < n) :
    ∃ r s : ℝ, |r| ≤ δ + (p.l + 2 * |p.a| * θ) * (p.dt * Kx) + p.e * p.h * (p.dt * Kx + p.dt * KD) ∧
      |s| ≤ p.h * (p.dt * Kx + p.dt * KD) ∧
      p.C * x ((k + 1 : ℕ) * p.dt) = p.C * x (k * p.dt) + p.dt * (F k - (p.l - p.a * x (k * p.dt)) * x (k * p.dt) -
        p.e * p.h * (x (k * p.dt) - y (k * p.dt))) + p.dt * r ∧
      p.D * y ((k + 1 : ℕ) * p.dt) = p.D * y (k * p.dt) + p.dt * (p.h * (x (k * p.dt) - y (k * p.dt))) + p.dt * s := by
  have hb := h.bounded hC hD he hh hdt hθ hM hμ hf
  have heh := mul_nonneg he hh
  push_cast
  set A := (k : ℝ) * p.dt with hA
  have hA0 : 0 ≤ A := by positivity
  have hB : (k + 1 : ℝ) * p.dt = A + p.dt := by rw [hA]; ring
  have hkn : (k + 1 : ℝ) ≤ n := by exact_mod_cast hk
  have hBn : A + p.dt ≤ n * p.dt := by rw [← hB]; gcongr
  have hode := h.ode k hk
  have hfk := hf k hk
  have hsk := hs k hk
  rw [hB] at hode hfk hsk ⊢
  have hsub : Icc A (A + p.dt) ⊆ Icc 0 (n * p.dt) := Icc_subset_Icc hA0 hBn
  have cx := h.contT.mono hsub
  have cy := h.contTD.mono hsub
  -- derivative bounds
  have dx : ∀ t ∈ Ioo A (A + p.dt), |deriv x t| ≤ Kx := by
    intro t ht
    obtain ⟨x', y', d1, d2, e1, e2⟩ := hode t ht
    obtain ⟨bx, by_⟩ := hb t (hsub ⟨ht.1.le, ht.2.le⟩)
    rw [d1.deriv]
    refine le_of_mul_le_mul_left ?_ hC
    rw [← abs_of_pos hC, ← abs_mul, e1, abs_of_pos hC]
    have hg : |(p.l - p.a * x t) * x t| ≤ (p.l + |p.a| * θ) * θ := by
      rw [abs_mul]
      gcongr
      refine (abs_sub _ _).trans ?_
      rw [abs_of_nonneg hl, abs_mul]
      gcongr
    have he' : |p.e * p.h * (x t - y t)| ≤ p.e * p.h * (2 * θ) := by
      rw [abs_mul, abs_of_nonneg heh]
      gcongr
      exact (abs_sub _ _).trans (by linarith)
    have := hfk t ht
    calc |f t - (p.l - p.a * x t) * x t - p.e * p.h * (x t - y t)|
        ≤ |f t| + |(p.l - p.a * x t) * x t| + |p.e * p.h * (x t - y t)| :=
          (abs_sub _ _).trans (by gcongr; exact abs_sub _ _)
      _ ≤ M + (p.l + |p.a| * θ) * θ + p.e * p.h * (2 * θ) := by gcongr
      _ ≤ p.C * Kx := by linarith
  have dy : ∀ t ∈ Ioo A (A + p.dt), |deriv y t| ≤ KD := by
    intro t ht
    obtain ⟨x', y', d1, d2, e1, e2⟩ := hode t ht
    obtain ⟨bx, by_⟩ := hb t (hsub ⟨ht.1.le, ht.2.le⟩)
    rw [d2.deriv]
    refine le_of_mul_le_mul_left ?_ hD
    rw [← abs_of_pos hD, ← abs_mul, e2, abs_of_pos hD, abs_mul, abs_of_nonneg hh]
    have : |x t - y t| ≤ 2 * θ := (abs_sub _ _).trans (by linarith)
    calc p.h * |x t - y t| ≤ p.h * (2 * θ) := by gcongr
      _ ≤ p.D * KD := by linarith
  have hKx0 : 0 ≤ Kx := (abs_nonneg _).trans (dx (A + p.dt / 2) ⟨by linarith, by linarith⟩)
  have hKD0 : 0 ≤ KD := (abs_nonneg _).trans (dy (A + p.dt / 2) ⟨by linarith, by linarith⟩)
  have diffx : ∀ t ∈ Ioo A (A + p.dt), HasDerivAt x (deriv x t) t := fun t ht => by
    obtain ⟨x', y', d1, d2, e1, e2⟩ := hode t ht
    exact d1.differentiableAt.hasDerivAt
  have diffy : ∀ t ∈ Ioo A (A + p.dt), HasDerivAt y (deriv y t) t := fun t ht => by
    obtain ⟨x', y', d1, d2, e1, e2⟩ := hode t ht
    exact d2.differentiableAt.hasDerivAt
  -- change within the step
  have chx : ∀ t ∈ Ioo A (A + p.dt), |x t - x A| ≤ p.dt * Kx := by
    intro t ht
    obtain ⟨c, hc, hce⟩ := exists_hasDerivAt_eq_slope x (deriv x) ht.1 (cx.mono (Icc_subset_Icc le_rfl ht.2.le))
      (fun u hu => diffx u ⟨hu.1, hu.2.trans ht.2⟩)
    have hta : 0 < t - A := by linarith [ht.1]
    have := dx c ⟨hc.1, hc.2.trans ht.2⟩
    rw [hce, abs_div, abs_of_pos hta, div_le_iff₀ hta] at this
    refine this.trans ?_
    rw [mul_comm]
    gcongr
    linarith [ht.2]
  have chy : ∀ t ∈ Ioo A (A + p.dt), |y t - y A| ≤ p.dt * KD := by
    intro t ht
    obtain ⟨c, hc, hce⟩ := exists_hasDerivAt_eq_slope y (deriv y) ht.1 (cy.mono (Icc_subset_Icc le_rfl ht.2.le))
      (fun u hu => diffy u ⟨hu.1, hu.2.trans ht.2⟩)
    have hta : 0 < t - A := by linarith [ht.1]
    have := dy c ⟨hc.1, hc.2.trans ht.2⟩
    rw [hce, abs_div, abs_of_pos hta, div_le_iff₀ hta] at this
    refine this.trans ?_
    rw [mul_comm]
    gcongr
    linarith [ht.2]
  have hlt : A < A + p.dt := by linarith
  obtain ⟨bA, bA'⟩ := hb A (hsub ⟨le_rfl, hlt.le⟩)
  obtain ⟨ξ, hξ, eξ⟩ := exists_hasDerivAt_eq_slope x (deriv x) hlt cx diffx
  obtain ⟨ζ, hζ, eζ⟩ := exists_hasDerivAt_eq_slope y (deriv y) hlt cy diffy
  rw [add_sub_cancel_left, eq_div_iff hdt.ne'] at eξ eζ
  obtain ⟨x', y', d1, d2, e1, -⟩ := hode ξ hξ
  obtain ⟨x'', y'', d1', d2', -, e2⟩ := hode ζ hζ
  rw [d1.deriv] at eξ
  rw [d2'.deriv] at eζ
  refine ⟨p.C * x' - (F k - (p.l - p.a * x A) * x A - p.e * p.h * (x A - y A)), p.D * y'' - p.h * (x A - y A), ?_, ?_, ?_, ?_⟩
  · obtain ⟨bξ, -⟩ := hb ξ (hsub ⟨hξ.1.le, hξ.2.le⟩)
    have c1 := chx ξ hξ
    have c2 := chy ξ hξ
    have c3 := hsk ξ hξ
    have e : p.C * x' - (F k - (p.l - p.a * x A) * x A - p.e * p.h * (x A - y A)) =
        (f ξ - F k) - (p.l - p.a * (x ξ + x A)) * (x ξ - x A) - p.e * p.h * ((x ξ - x A) - (y ξ - y A)) := by
      rw [e1]; ring
    have hg : |(p.l - p.a * (x ξ + x A)) * (x ξ - x A)| ≤ (p.l + 2 * |p.a| * θ) * (p.dt * Kx) := by
      rw [abs_mul]
      gcongr
      refine (abs_sub _ _).trans ?_
      rw [abs_of_nonneg hl, abs_mul]
      have := (abs_add_le (x ξ) (x A)).trans (add_le_add bξ bA)
      have := mul_le_mul_of_nonneg_left this (abs_nonneg p.a)
      linarith
    have hg2 : |p.e * p.h * ((x ξ - x A) - (y ξ - y A))| ≤ p.e * p.h * (p.dt * Kx + p.dt * KD) := by
      rw [abs_mul, abs_of_nonneg heh]
      gcongr
      exact (abs_sub _ _).trans (add_le_add c1 c2)
    rw [e]
    exact (abs_sub _ _).trans (add_le_add ((abs_sub _ _).trans (add_le_add c3 hg)) hg2)
  · have c1 := chx ζ hζ
    have c2 := chy ζ hζ
    have e : p.D * y'' - p.h * (x A - y A) = p.h * ((x ζ - x A) - (y ζ - y A)) := by rw [e2]; ring
    rw [e, abs_mul, abs_of_nonneg hh]
    gcongr
    exact (abs_sub _ _).trans (add_le_add c1 c2)
  · have : p.C * (x (A + p.dt) - x A) = p.C * (x' * p.dt) := by rw [eξ]
    linarith
  · have : p.D * (y (A + p.dt) - y A) = p.D * (y'' * p.dt) := by rw [eζ]
    linarith

end TwoLayerStateForced

namespace TLPar
variable {p : TLPar}

/-- the stepped temperatures stay in `[-θ, θ]` -/
theorem bounded_state (hC : 0 < p.C) (hD : 0 < p.D) (he : 0 ≤ p.e) (hh : 0 ≤ p.h) (hdt : 0 < p.dt) {θ M : ℝ}
    (hθ : 0 ≤ θ) (hM : M ≤ (p.l - |p.a| * θ) * θ) (hup : p.dt * (p.l + 2 * |p.a| * θ + p.e * p.h) ≤ p.C)
    (hlo : p.dt * p.h ≤ p.D) {F : ℕ → ℝ} {n : ℕ} (hF : ∀ k < n, |F k| ≤ M) :
    ∀ i ≤ n, |p.T F i| ≤ θ ∧ |p.TD F i| ≤ θ := by
  have heh := mul_nonneg hdt.le (mul_nonneg he hh)
  have hdh := mul_nonneg hdt.le hh
  have hB : 0 ≤ p.D - p.dt * p.h := by linarith
  intro i
  induction i with
  | zero => intro _; simp [hθ]
  | succ i ih =>
    intro hi
    obtain ⟨t, d⟩ := ih (by omega)
    have f := abs_le.mp (hF i (by omega))
    obtain ⟨t1, t2⟩ := abs_le.mp t
    obtain ⟨d1, d2⟩ := abs_le.mp d
    have hT := T_step hC.ne' F i
    have hTD := TD_step hD.ne' F i
    generalize p.T F i = x at *
    generalize p.TD F i = y at *
    -- `C x - dt (l - a x) x - dt e h x` is non-decreasing in `x`
    have m1 := mul_le_mul_of_nonneg_left d2 heh
    have m2 := mul_le_mul_of_nonneg_left d1 heh
    have m3 := mul_le_mul_of_nonneg_left d2 hB
    have m4 := mul_le_mul_of_nonneg_left d1 hB
    have m5 := mul_le_mul_of_nonneg_left t2 hdh
    have m6 := mul_le_mul_of_nonneg_left t1 hdh
    have hdM := mul_le_mul_of_nonneg_left hM hdt.le
    have f1 := mul_le_mul_of_nonneg_left f.1 hdt.le
    have f2 := mul_le_mul_of_nonneg_left f.2 hdt.le
    have ax : ∀ z, |z| ≤ 2 * θ → 0 ≤ p.C - p.dt * (p.l - p.a * z + p.e * p.h) := by
      intro z hz
      have h1 : -(p.a * z) ≤ |p.a| * (2 * θ) := by
        refine (neg_le_abs _).trans ?_
        rw [abs_mul]; gcongr
      have := mul_le_mul_of_nonneg_left h1 hdt.le
      linarith
    have g1 : 0 ≤ (p.C - p.dt * (p.l - p.a * (θ + x) + p.e * p.h)) * (θ - x) :=
      mul_nonneg (ax _ (abs_le.mpr ⟨by linarith, by linarith⟩)) (by linarith)
    have g2 : 0 ≤ (p.C - p.dt * (p.l - p.a * (x - θ) + p.e * p.h)) * (x + θ) :=
      mul_nonneg (ax _ (abs_le.mpr ⟨by linarith, by linarith⟩)) (by linarith)
    have hsq : 0 ≤ p.dt * θ ^ 2 := by positivity
    have a1 := mul_le_mul_of_nonneg_right (le_abs_self p.a) hsq
    have a2 := mul_le_mul_of_nonneg_right (neg_le_abs p.a) hsq
    refine ⟨abs_le.mpr ⟨?_, ?_⟩, abs_le.mpr ⟨?_, ?_⟩⟩
    · refine le_of_mul_le_mul_left ?_ hC
      rw [hT]; linarith
    · refine le_of_mul_le_mul_left ?_ hC
      rw [hT]; linarith
    · refine le_of_mul_le_mul_left ?_ hD
      rw [hTD]; linarith
    · refine le_of_mul_le_mul_left ?_ hD
      rw [hTD]; linarith

theorem accuracy_state (hC : 0 < p.C) (hD : 0 < p.D) (he : 0 ≤ p.e) (hh : 0 ≤ p.h) (hl : 0 ≤ p.l) (hdt : 0 < p.dt)
    {θ M δ : ℝ} (hθ : 0 ≤ θ) (hδ : 0 ≤ δ) (hM : M ≤ (p.l - |p.a| * θ) * θ) (hμ : 0 < p.l - 2 * |p.a| * θ)
    (hup : p.dt * (p.l + 2 * |p.a| * θ + p.e * p.h) ≤ p.C) (hlo : p.dt * p.h ≤ p.D) {F : ℕ → ℝ} {n : ℕ}
    (hF : ∀ k < n, |F k| ≤ M) {f x y : ℝ → ℝ}
    (hf : ∀ k < n, ∀ t ∈ Ioo (k * p.dt) ((k + 1) * p.dt), |f t| ≤ M) (hs : Samples F f p.dt n δ)
    (h : TwoLayerStateForced p n f x y) {Kx KD : ℝ} (hKx : 2 * (p.l + p.e * p.h) * θ ≤ p.C * Kx)
    (hKD : 2 * p.h * θ ≤ p.D * KD) {A : ℝ}
    (hA : δ + p.dt * ((p.l + 2 * |p.a| * θ) * Kx + 2 * (p.e * p.h) * (Kx + KD)) ≤ (p.l - 2 * |p.a| * θ) * A) :
    ∀ i ≤ n, |p.T F i - x (i * p.dt)| ≤ A ∧ |p.TD F i - y (i * p.dt)| ≤ A + p.dt * (Kx + KD) := by
  have hKx0 : 0 ≤ Kx := by
    by_contra hn
    have := mul_neg_of_pos_of_neg hC (not_le.mp hn)
    have : 0 ≤ 2 * (p.l + p.e * p.h) * θ := by positivity
    linarith
  have hKD0 : 0 ≤ KD := by
    by_contra hn
    have := mul_neg_of_pos_of_neg hD (not_le.mp hn)
    have : 0 ≤ 2 * p.h * θ := by positivity
    linarith
  have hA0 : 0 ≤ A := by
    by_contra hn
    have := mul_neg_of_pos_of_neg hμ (not_le.mp hn)
    have : 0 ≤ δ + p.dt * ((p.l + 2 * |p.a| * θ) * Kx + 2 * (p.e * p.h) * (Kx + KD)) := by positivity
    linarith
  have hbd := bounded_state hC hD he hh hdt hθ hM hup hlo hF
  have hbx := h.bounded hC hD he hh hdt hθ hM hμ hf
  intro i
  induction i with
  | zero =>
    intro _
    simp only [T_zero, TD_zero, Nat.cast_zero, zero_mul, h.rest.1, h.rest.2, sub_self, abs_zero]
    exact ⟨hA0, by positivity⟩
  | succ i ih =>
    intro hi
    obtain ⟨e, d⟩ := ih (by omega)
    obtain ⟨r, s, hr, hs', ex, ey⟩ := h.step hC hD he hh hl hdt hθ hM hμ hf hs hKx hKD (k := i) hi
    have hT := T_step hC.ne' F i
    have hTD := TD_step hD.ne' F i
    have bT := (hbd i (by omega)).1
    have bx := (hbx (i * p.dt) ⟨by positivity, by
      have : (i : ℝ) ≤ n := by exact_mod_cast (by omega : i ≤ n)
      gcongr⟩).1
    generalize x ((i + 1 : ℕ) * p.dt) = x1 at *
    generalize y ((i + 1 : ℕ) * p.dt) = y1 at *
    generalize x (i * p.dt) = x0 at *
    generalize y (i * p.dt) = y0 at *
    generalize p.T F (i + 1) = T1 at *
    generalize p.TD F (i + 1) = D1 at *
    generalize p.T F i = T0 at *
    generalize p.TD F i = D0 at *
    have haz : |p.a * (T0 + x0)| ≤ 2 * |p.a| * θ := by
      rw [abs_mul]
      have := (abs_add_le T0 x0).trans (add_le_add bT bx)
      have := mul_le_mul_of_nonneg_left this (abs_nonneg p.a)
      linarith
    obtain ⟨z1, z2⟩ := abs_le.mp haz
    have hco : 0 ≤ p.C - p.dt * (p.l - p.a * (T0 + x0) + p.e * p.h) := by
      have := mul_le_mul_of_nonneg_left z1 hdt.le
      linarith
    have heh : 0 ≤ p.e * p.h := mul_nonneg he hh
    constructor
    · refine le_of_mul_le_mul_left ?_ hC
      have e1 : p.C * (T1 - x1) = (p.C - p.dt * (p.l - p.a * (T0 + x0) + p.e * p.h)) * (T0 - x0) +
          p.dt * (p.e * p.h) * (D0 - y0) - p.dt * r := by
        rw [mul_sub, hT, ex]; ring
      rw [← abs_of_pos hC, ← abs_mul, e1, abs_of_pos hC]
      have k1 : |(p.C - p.dt * (p.l - p.a * (T0 + x0) + p.e * p.h)) * (T0 - x0)| ≤
          (p.C - p.dt * (p.l - p.a * (T0 + x0) + p.e * p.h)) * A := by
        rw [abs_mul, abs_of_nonneg hco]; gcongr
      have k2 : |p.dt * (p.e * p.h) * (D0 - y0)| ≤ p.dt * (p.e * p.h) * (A + p.dt * (Kx + KD)) := by
        rw [abs_mul, abs_of_nonneg (by positivity)]; gcongr
      have k3 : |p.dt * r| ≤ p.dt * (δ + (p.l + 2 * |p.a| * θ) * (p.dt * Kx) + p.e * p.h * (p.dt * Kx + p.dt * KD)) := by
        rw [abs_mul, abs_of_pos hdt]; gcongr
      have k4 : p.dt * (p.l - 2 * |p.a| * θ) * A ≤ p.dt * (p.l - p.a * (T0 + x0)) * A := by
        gcongr
      have k5 := mul_le_mul_of_nonneg_left hA hdt.le
      refine (abs_sub _ _).trans ((add_le_add ((abs_add_le _ _).trans (add_le_add k1 k2)) k3).trans ?_)
      linarith
    · refine le_of_mul_le_mul_left ?_ hD
      have e1 : p.D * (D1 - y1) = (p.D - p.dt * p.h) * (D0 - y0) + p.dt * p.h * (T0 - x0) - p.dt * s := by
        rw [mul_sub, hTD, ey]; ring
      rw [← abs_of_pos hD, ← abs_mul, e1, abs_of_pos hD]
      have k1 : |(p.D - p.dt * p.h) * (D0 - y0)| ≤ (p.D - p.dt * p.h) * (A + p.dt * (Kx + KD)) := by
        rw [abs_mul, abs_of_nonneg (by linarith)]
        exact mul_le_mul_of_nonneg_left d (by linarith)
      have k2 : |p.dt * p.h * (T0 - x0)| ≤ p.dt * p.h * A := by
        rw [abs_mul, abs_of_nonneg (by positivity)]; gcongr
      have k3 : |p.dt * s| ≤ p.dt * (p.h * (p.dt * Kx + p.dt * KD)) := by
        rw [abs_mul, abs_of_pos hdt]; gcongr
      refine (abs_sub _ _).trans ((add_le_add ((abs_add_le _ _).trans (add_le_add k1 k2)) k3).trans ?_)
      linarith

end TLPar
end TwoLayer
