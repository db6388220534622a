import Verif.Spec.Accuracy
import Verif.Proofs.Agree
import Mathlib.Analysis.Calculus.Deriv.MeanValue

/-! # Sampled and continuous forcing -/

namespace TwoLayer

theorem BoxForced.upper {q d dt δ : ℝ} {n : ℕ} {g y : ℝ → ℝ} (hd : 0 < d) (hdt : 0 < dt) (hq : 0 ≤ q) (hδ : 0 ≤ δ)
    (h : BoxForced q d dt n g y) (hg : ∀ k < n, ∀ t ∈ Set.Ioo (k * dt) ((k + 1) * dt), g t ≤ δ) :
    ∀ i ≤ n, y (i * dt) ≤ q * δ := by
  intro i
  induction i with
  | zero => intro _; simp only [Nat.cast_zero, zero_mul, h.rest]; positivity
  | succ k ih =>
    intro hk
    have ih := ih (by omega)
    push_cast
    set a := (k : ℝ) * dt with ha
    set b := ((k : ℝ) + 1) * dt with hb
    have hab : a < b := by rw [ha, hb]; linarith
    have hsub : Set.Icc a b ⊆ Set.Icc 0 (n * dt) := by
      apply Set.Icc_subset_Icc
      · positivity
      · have : ((k : ℝ) + 1) ≤ n := by exact_mod_cast hk
        rw [hb]; exact mul_le_mul_of_nonneg_right this hdt.le
    let w : ℝ → ℝ := fun t => (y t - q * δ) * Real.exp (t / d)
    have hw : ContinuousOn w (Set.Icc a b) := ((h.cont.mono hsub).sub continuousOn_const).mul (by fun_prop)
    have hw' : ∀ t ∈ Set.Ioo a b, ∃ w', HasDerivAt w w' t ∧ w' ≤ 0 := by
      intro t ht
      obtain ⟨y', hy', he⟩ := h.ode k (by omega) t ht
      have h1 : HasDerivAt (fun t : ℝ => Real.exp (t / d)) (Real.exp (t / d) * (1 / d)) t :=
        ((hasDerivAt_id t).div_const d).exp
      refine ⟨_, (hy'.sub_const (q * δ)).mul h1, ?_⟩
      have e : y' = (q * g t - y t) / d := by rw [eq_div_iff hd.ne']; linarith
      rw [e, show (q * g t - y t) / d * Real.exp (t / d) + (y t - q * δ) * (Real.exp (t / d) * (1 / d)) =
        -(q * (δ - g t) * Real.exp (t / d) / d) by field_simp; ring]
      have : 0 ≤ δ - g t := sub_nonneg.mpr (hg k (by omega) t ht)
      have : 0 ≤ q * (δ - g t) * Real.exp (t / d) / d := by positivity
      linarith
    have hanti : AntitoneOn w (Set.Icc a b) := by
      apply antitoneOn_of_deriv_nonpos (convex_Icc a b) hw
      · rw [interior_Icc]
        intro t ht
        obtain ⟨w', h1, -⟩ := hw' t ht
        exact h1.differentiableAt.differentiableWithinAt
      · rw [interior_Icc]
        intro t ht
        obtain ⟨w', h1, h2⟩ := hw' t ht
        rw [h1.deriv]; exact h2
    have hle : w b ≤ w a := hanti (Set.left_mem_Icc.mpr hab.le) (Set.right_mem_Icc.mpr hab.le) hab.le
    have ha0 : w a ≤ 0 := mul_nonpos_of_nonpos_of_nonneg (by linarith) (Real.exp_pos _).le
    have hb0 : (y b - q * δ) * Real.exp (b / d) ≤ 0 := hle.trans ha0
    by_contra hcon
    push Not at hcon
    have : 0 < (y b - q * δ) * Real.exp (b / d) := mul_pos (by linarith) (Real.exp_pos _)
    linarith

theorem BoxForced.neg {q d dt : ℝ} {n : ℕ} {g y : ℝ → ℝ} (h : BoxForced q d dt n g y) :
    BoxForced q d dt n (fun t => -g t) (fun t => -y t) := by
  refine ⟨by simp [h.rest], h.cont.neg, fun k hk t ht => ?_⟩
  obtain ⟨y', h1, h2⟩ := h.ode k hk t ht
  exact ⟨-y', h1.neg, by linarith⟩

theorem BoxForced.bound {q d dt δ : ℝ} {n : ℕ} {g y : ℝ → ℝ} (hd : 0 < d) (hdt : 0 < dt) (hq : 0 ≤ q) (hδ : 0 ≤ δ)
    (h : BoxForced q d dt n g y) (hg : ∀ k < n, ∀ t ∈ Set.Ioo (k * dt) ((k + 1) * dt), |g t| ≤ δ) :
    ∀ i ≤ n, |y (i * dt)| ≤ q * δ := by
  intro i hi
  have h1 := h.upper hd hdt hq hδ (fun k hk t ht => (abs_le.mp (hg k hk t ht)).2) i hi
  have h2 := h.neg.upper hd hdt hq hδ (fun k hk t ht => by linarith [(abs_le.mp (hg k hk t ht)).1]) i hi
  exact abs_le.mpr ⟨by linarith, h1⟩

/-- the exact response to a forcing and to its samples differ by at most `q δ` -/
theorem BoxForced.sampled {q d dt δ : ℝ} {n : ℕ} {F : ℕ → ℝ} {f y : ℝ → ℝ} (hd : 0 < d) (hdt : 0 < dt) (hq : 0 ≤ q)
    (hδ : 0 ≤ δ) (h : BoxForced q d dt n f y) (hs : Samples F f dt n δ) :
    ∀ i ≤ n, |y (i * dt) - boxSol q d dt F i| ≤ q * δ := by
  obtain ⟨z, hz⟩ := BoxODE.exists q hd.ne' hdt n F
  intro i hi
  rw [← hz.eq_boxSol hd.ne' hdt i hi]
  -- the step a time belongs to
  let g : ℝ → ℝ := fun t => f t - F (⌊t / dt⌋₊)
  have hfl : ∀ k : ℕ, ∀ t ∈ Set.Ioo ((k : ℝ) * dt) ((k + 1) * dt), ⌊t / dt⌋₊ = k := by
    intro k t ⟨h1, h2⟩
    rw [Nat.floor_eq_iff (by have : 0 ≤ (k : ℝ) * dt := by positivity
                             have : 0 ≤ t := by linarith
                             positivity)]
    exact ⟨by rw [le_div_iff₀ hdt]; exact h1.le, by rw [div_lt_iff₀ hdt]; exact h2⟩
  have hb : BoxForced q d dt n g (fun t => y t - z t) := by
    refine ⟨by simp [h.rest, hz.rest], h.cont.sub hz.cont, fun k hk t ht => ?_⟩
    obtain ⟨y', a1, a2⟩ := h.ode k hk t ht
    obtain ⟨z', b1, b2⟩ := hz.ode k hk t ht
    refine ⟨_, a1.sub b1, ?_⟩
    simp only [g, hfl k t ht]
    linarith
  exact hb.bound hd hdt hq hδ (fun k hk t ht => by simp only [g, hfl k t ht]; exact hs k hk t ht) i hi

theorem TwoLayerForced.boxes {p : TLPar} (hp : p.Pos) {n : ℕ} {f T TD : ℝ → ℝ} (h : TwoLayerForced p n f T TD) :
    BoxForced p.q1 p.tau1 p.dt n f (fun t => (p.phi2 * T t - TD t) / (p.phi2 - p.phi1)) ∧
    BoxForced p.q2 p.tau2 p.dt n f (fun t => (TD t - p.phi1 * T t) / (p.phi2 - p.phi1)) :=
  ⟨⟨by simp [h.rest.1, h.rest.2], ((continuousOn_const.mul h.contT).sub h.contTD).div_const _,
    fun k hk t ht => (TLPar.boxes_pt hp (h.ode k hk t ht)).1⟩,
   ⟨by simp [h.rest.1, h.rest.2], (h.contTD.sub (continuousOn_const.mul h.contT)).div_const _,
    fun k hk t ht => (TLPar.boxes_pt hp (h.ode k hk t ht)).2⟩⟩

/-- the forward-Euler two-layer solution against the differential equations -/
theorem TLPar.accuracy {p : TLPar} (hp : p.Pos) (ha : p.a = 0) (hdt : p.dt ≤ p.tau1) {n : ℕ} {F : ℕ → ℝ} {f T TD : ℝ → ℝ}
    {M δ : ℝ} (hF : ∀ i < n, |F i| ≤ M) (hM : 0 ≤ M) (hδ : 0 ≤ δ) (h : TwoLayerForced p n f T TD)
    (hs : Samples F f p.dt n δ) (i : ℕ) (hi : i ≤ n) :
    |p.T F i - T (i * p.dt)| ≤ p.dt * M / p.C + δ / p.l ∧
    |p.TD F i - TD (i * p.dt)| ≤ p.dt * M * (|p.phi1| * (p.q1 / p.tau1) + |p.phi2| * (p.q2 / p.tau2)) +
      δ * (|p.phi1| * p.q1 + |p.phi2| * p.q2) := by
  obtain ⟨b1, b2⟩ := h.boxes hp
  have s1 := b1.sampled hp.tau1_pos hp.dt hp.q1_pos.le hδ hs i hi
  have s2 := b2.sampled hp.tau2_pos hp.dt hp.q2_pos.le hδ hs i hi
  obtain ⟨a1, a2, -⟩ := TLPar.agree hp ha hdt hF hM i hi
  rw [TLPar.toIR_T1, TLPar.toIR_T2] at a1 a2
  have hne : p.phi2 - p.phi1 ≠ 0 := (Geo.phi_sub_pos hp.C hp.D hp.l hp.e hp.h).ne'
  set z1 := (p.phi2 * T (i * p.dt) - TD (i * p.dt)) / (p.phi2 - p.phi1) with hz1
  set z2 := (TD (i * p.dt) - p.phi1 * T (i * p.dt)) / (p.phi2 - p.phi1) with hz2
  have e1 : T (i * p.dt) = z1 + z2 := by rw [hz1, hz2]; field_simp; ring
  have e2 : TD (i * p.dt) = p.phi1 * z1 + p.phi2 * z2 := by rw [hz1, hz2]; field_simp; ring
  set y1 := boxSol p.q1 p.tau1 p.dt F i
  set y2 := boxSol p.q2 p.tau2 p.dt F i
  constructor
  · have hq : p.q1 + p.q2 = 1 / p.l := hp.q_sum
    have : δ / p.l = p.q1 * δ + p.q2 * δ := by rw [← add_mul, hq]; ring
    rw [e1, this]
    calc |p.T F i - (z1 + z2)| = |(p.T F i - (y1 + y2)) - (z1 - y1) - (z2 - y2)| := by congr 1; ring
      _ ≤ |(p.T F i - (y1 + y2)) - (z1 - y1)| + |z2 - y2| := abs_sub _ _
      _ ≤ |p.T F i - (y1 + y2)| + |z1 - y1| + |z2 - y2| := by gcongr; exact abs_sub _ _
      _ ≤ _ := by linarith
  · rw [e2]
    calc |p.TD F i - (p.phi1 * z1 + p.phi2 * z2)|
        = |(p.TD F i - (p.phi1 * y1 + p.phi2 * y2)) - p.phi1 * (z1 - y1) - p.phi2 * (z2 - y2)| := by congr 1; ring
      _ ≤ |(p.TD F i - (p.phi1 * y1 + p.phi2 * y2)) - p.phi1 * (z1 - y1)| + |p.phi2 * (z2 - y2)| := abs_sub _ _
      _ ≤ |p.TD F i - (p.phi1 * y1 + p.phi2 * y2)| + |p.phi1 * (z1 - y1)| + |p.phi2 * (z2 - y2)| := by
          gcongr; exact abs_sub _ _
      _ = |p.TD F i - (p.phi1 * y1 + p.phi2 * y2)| + |p.phi1| * |z1 - y1| + |p.phi2| * |z2 - y2| := by
          rw [abs_mul, abs_mul]
      _ ≤ p.dt * M * (|p.phi1| * (p.q1 / p.tau1) + |p.phi2| * (p.q2 / p.tau2)) + |p.phi1| * (p.q1 * δ) +
          |p.phi2| * (p.q2 * δ) := by gcongr
      _ = _ := by ring

end TwoLayer
