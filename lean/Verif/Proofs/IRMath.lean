import Verif.Proofs.ExactIR
import Verif.Spec.Ode
import Mathlib.Analysis.Calculus.Deriv.MeanValue
import Mathlib.Analysis.SpecificLimits.Normed

/-! # The impulse response boxes -/

set_option linter.unusedSimpArgs false
set_option linter.unusedSectionVars false

namespace TwoLayer

variable {q d dt : ℝ} {F G : ℕ → ℝ}

theorem boxSol_succ (i : ℕ) : boxSol q d dt F (i + 1) =
    q * F i + (boxSol q d dt F i - q * F i) * Real.exp (-(dt / d)) := rfl

theorem boxSol_congr {k : ℕ} (h : ∀ i < k, F i = G i) : ∀ i ≤ k, boxSol q d dt F i = boxSol q d dt G i := by
  intro i
  induction i with
  | zero => intro _; rfl
  | succ i ih => intro hi; rw [boxSol_succ, boxSol_succ, ih (by omega), h i (by omega)]

theorem boxSol_zero {k : ℕ} (h : ∀ i < k, F i = 0) : ∀ i ≤ k, boxSol q d dt F i = 0 := by
  intro i
  induction i with
  | zero => intro _; rfl
  | succ i ih => intro hi; rw [boxSol_succ, ih (by omega), h i (by omega)]; simp

theorem boxSol_shift {k : ℕ} (h0 : ∀ i < k, G i = 0) (h1 : ∀ i, G (k + i) = F i) (i : ℕ) :
    boxSol q d dt G (k + i) = boxSol q d dt F i := by
  induction i with
  | zero => exact boxSol_zero h0 k le_rfl
  | succ i ih => rw [← Nat.add_assoc, boxSol_succ, boxSol_succ, ih, h1]

theorem boxSol_linear (x y : ℝ) (F G : ℕ → ℝ) (i : ℕ) :
    boxSol q d dt (fun j => x * F j + y * G j) i = x * boxSol q d dt F i + y * boxSol q d dt G i := by
  induction i with
  | zero => simp [boxSol]
  | succ i ih => rw [boxSol_succ, boxSol_succ, boxSol_succ, ih]; ring

theorem exp_le_one' (hdt : 0 ≤ dt) (hd : 0 < d) : Real.exp (-(dt / d)) ≤ 1 := by
  rw [Real.exp_le_one_iff]
  have : 0 ≤ dt / d := by positivity
  linarith

theorem boxSol_mono (hq : 0 ≤ q) (hd : 0 < d) (hdt : 0 ≤ dt) {k : ℕ} (h : ∀ i < k, F i ≤ G i) :
    ∀ i ≤ k, boxSol q d dt F i ≤ boxSol q d dt G i := by
  intro i
  induction i with
  | zero => intro _; exact le_rfl
  | succ i ih =>
    intro hi
    have e1 := exp_le_one' hdt hd
    have e0 := Real.exp_pos (-(dt / d))
    rw [boxSol_succ, boxSol_succ]
    have t := mul_le_mul_of_nonneg_right (ih (by omega)) e0.le
    have f := mul_le_mul_of_nonneg_left (h i (by omega)) hq
    have f' := mul_le_mul_of_nonneg_right f (sub_nonneg.mpr e1)
    linarith

theorem boxSol_const (c : ℝ) (i : ℕ) :
    boxSol q d dt (fun _ => c) i = q * c * (1 - Real.exp (-(i * dt / d))) := by
  induction i with
  | zero => simp [boxSol]
  | succ i ih =>
    rw [boxSol_succ, ih]
    have : Real.exp (-((i + 1 : ℕ) * dt / d)) = Real.exp (-(i * dt / d)) * Real.exp (-(dt / d)) := by
      rw [← Real.exp_add]; congr 1; push_cast; ring
    rw [this]; ring

theorem boxSol_bounds (hq : 0 ≤ q) (hd : 0 < d) (hdt : 0 ≤ dt) {lo hi : ℝ} (hlo : lo ≤ 0) (hhi : 0 ≤ hi) {k : ℕ}
    (h : ∀ i < k, lo ≤ F i ∧ F i ≤ hi) : ∀ i ≤ k, q * lo ≤ boxSol q d dt F i ∧ boxSol q d dt F i ≤ q * hi := by
  intro i hik
  have key : ∀ i : ℕ, 0 ≤ 1 - Real.exp (-(i * dt / d)) ∧ 1 - Real.exp (-(i * dt / d)) ≤ 1 := by
    intro i
    have := Real.exp_pos (-(i * dt / d))
    have h2 : Real.exp (-(i * dt / d)) ≤ 1 := exp_le_one' (by positivity) hd
    constructor <;> linarith
  obtain ⟨k1, k2⟩ := key i
  have m1 := boxSol_mono hq hd hdt (F := fun _ => lo) (G := F) (fun i hi => (h i hi).1) i hik
  have m2 := boxSol_mono hq hd hdt (F := F) (G := fun _ => hi) (fun i hi => (h i hi).2) i hik
  rw [boxSol_const] at m1 m2
  have n1 : q * lo ≤ 0 := mul_nonpos_of_nonneg_of_nonpos hq hlo
  have n2 : 0 ≤ q * hi := mul_nonneg hq hhi
  constructor
  · nlinarith
  · nlinarith

/-- sub-stepping -/
theorem boxSol_substep {μ : ℕ} (hμ : 0 < μ) (F : ℕ → ℝ) (i : ℕ) :
    boxSol q d (dt / μ) (fun j => F (j / μ)) (μ * i) = boxSol q d dt F i := by
  have hμ' : (μ : ℝ) ≠ 0 := by exact_mod_cast hμ.ne'
  have inner : ∀ i, ∀ j ≤ μ, boxSol q d (dt / μ) (fun j => F (j / μ)) (μ * i + j) =
      q * F i + (boxSol q d (dt / μ) (fun j => F (j / μ)) (μ * i) - q * F i) * Real.exp (-(j * (dt / μ) / d)) := by
    intro i j
    induction j with
    | zero => intro _; simp
    | succ j ih =>
      intro hj
      rw [← Nat.add_assoc, boxSol_succ, ih (by omega)]
      have hF : (μ * i + j) / μ = i := by
        rw [Nat.mul_add_div hμ, Nat.div_eq_of_lt (by omega), Nat.add_zero]
      rw [hF]
      have : Real.exp (-((j + 1 : ℕ) * (dt / μ) / d)) = Real.exp (-(j * (dt / μ) / d)) * Real.exp (-(dt / μ / d)) := by
        rw [← Real.exp_add]; congr 1; push_cast; ring
      rw [this]; ring
  induction i with
  | zero => rfl
  | succ i ih =>
    rw [Nat.mul_succ, inner i μ le_rfl, ih, boxSol_succ]
    congr 3
    field_simp

/-! ## ODE -/

/-- within one step the solution is the exponential -/
theorem BoxODE.step {n : ℕ} {y : ℝ → ℝ} (hd : d ≠ 0) (hdt : 0 < dt) (h : BoxODE q d dt n F y) {k : ℕ} (hk : k < n) :
    y ((k + 1) * dt) = q * F k + (y (k * dt) - q * F k) * Real.exp (-(dt / d)) := by
  set a := (k : ℝ) * dt with ha
  set b := ((k : ℝ) + 1) * dt with hb
  have hab : a < b := by rw [ha, hb]; linarith
  have hsub : Set.Icc a b ⊆ Set.Icc 0 (n * dt) := by
    apply Set.Icc_subset_Icc
    · positivity
    · have : ((k : ℝ) + 1) ≤ n := by exact_mod_cast hk
      rw [hb]; exact mul_le_mul_of_nonneg_right this hdt.le
  let g : ℝ → ℝ := fun t => (y t - q * F k) * Real.exp (t / d)
  have hg : ContinuousOn g (Set.Icc a b) :=
    ((h.cont.mono hsub).sub continuousOn_const).mul (by fun_prop)
  have hg' : ∀ t ∈ Set.Ioo a b, HasDerivAt g 0 t := by
    intro t ht
    obtain ⟨y', hy', he⟩ := h.ode k hk t ht
    have h1 : HasDerivAt (fun t : ℝ => Real.exp (t / d)) (Real.exp (t / d) * (1 / d)) t :=
      ((hasDerivAt_id t).div_const d).exp
    have h2 := (hy'.sub_const (q * F k)).mul h1
    refine h2.congr_deriv ?_
    have : y' = (q * F k - y t) / d := by rw [eq_div_iff hd]; linarith
    rw [this]; field_simp; ring
  obtain ⟨c, hc, hcs⟩ := exists_hasDerivAt_eq_slope g (fun _ => 0) hab hg hg'
  have hgab : g b = g a := by
    have : b - a ≠ 0 := by linarith
    field_simp at hcs
    linarith
  have hgab' : (y b - q * F k) * Real.exp (b / d) = (y a - q * F k) * Real.exp (a / d) := hgab
  have hexp : Real.exp (a / d) = Real.exp (-(dt / d)) * Real.exp (b / d) := by
    rw [← Real.exp_add]; congr 1; rw [ha, hb]; ring
  rw [hexp, ← mul_assoc] at hgab'
  have := mul_right_cancel₀ (Real.exp_pos _).ne' hgab'
  linarith

theorem BoxODE.eq_boxSol {n : ℕ} {y : ℝ → ℝ} (hd : d ≠ 0) (hdt : 0 < dt) (h : BoxODE q d dt n F y) :
    ∀ i ≤ n, y (i * dt) = boxSol q d dt F i := by
  intro i
  induction i with
  | zero => intro _; simpa [boxSol] using h.rest
  | succ i ih =>
    intro hi
    push_cast
    rw [h.step hd hdt (by omega), ih (by omega), boxSol_succ]

/-- forcing increments -/
def incr (F : ℕ → ℝ) : ℕ → ℝ
  | 0 => F 0
  | k + 1 => F (k + 1) - F k

theorem sum_incr (F : ℕ → ℝ) (k : ℕ) : ∑ j ∈ Finset.range (k + 1), incr F j = F k := by
  induction k with
  | zero => simp [incr]
  | succ k ih => rw [Finset.sum_range_succ, ih, incr]; ring

/-- the box equation has a solution -/
theorem BoxODE.exists (q : ℝ) (hd : d ≠ 0) (hdt : 0 < dt) (n : ℕ) (F : ℕ → ℝ) : ∃ y, BoxODE q d dt n F y := by
  let term : ℕ → ℝ → ℝ := fun j t => q * incr F j * (1 - Real.exp (-(max (t - j * dt) 0 / d)))
  refine ⟨fun t => ∑ j ∈ Finset.range n, term j t, ?_, ?_, ?_⟩
  · refine Finset.sum_eq_zero fun j _ => ?_
    have : max (0 - (j : ℝ) * dt) 0 = 0 := by
      apply max_eq_right
      have : 0 ≤ (j : ℝ) * dt := by positivity
      linarith
    simp only [term]
    rw [this]; simp
  · refine Continuous.continuousOn ?_
    refine continuous_finsetSum _ fun j _ => ?_
    simp only [term]
    fun_prop
  · intro k hk t ⟨ht1, ht2⟩
    -- terms after k are zero near t, terms up to k are smooth
    have hlt : ∀ j, k < j → term j =ᶠ[nhds t] fun _ => 0 := by
      intro j hj
      filter_upwards [Iio_mem_nhds ht2] with s hs
      have : max (s - j * dt) 0 = 0 := by
        apply max_eq_right
        have h1 : ((k : ℝ) + 1) ≤ j := by exact_mod_cast hj
        have := mul_le_mul_of_nonneg_right h1 hdt.le
        have : s < ((k : ℝ) + 1) * dt := hs
        linarith
      simp only [term]
      rw [this]; simp
    have hge : ∀ j, j ≤ k → term j =ᶠ[nhds t] fun s => q * incr F j * (1 - Real.exp (-((s - j * dt) / d))) := by
      intro j hj
      filter_upwards [Ioi_mem_nhds ht1] with s hs
      have : max (s - j * dt) 0 = s - j * dt := by
        apply max_eq_left
        have h1 : (j : ℝ) ≤ k := by exact_mod_cast hj
        have := mul_le_mul_of_nonneg_right h1 hdt.le
        have : (k : ℝ) * dt < s := hs
        linarith
      simp only [term]
      rw [this]
    let D : ℕ → ℝ := fun j => if j ≤ k then q * incr F j * (Real.exp (-((t - j * dt) / d)) / d) else 0
    have hD : ∀ j, HasDerivAt (term j) (D j) t := by
      intro j
      by_cases hj : j ≤ k
      · simp only [D, if_pos hj]
        refine HasDerivAt.congr_of_eventuallyEq ?_ (hge j hj)
        have h1 : HasDerivAt (fun s : ℝ => -((s - j * dt) / d)) (-(1 / d)) t :=
          (((hasDerivAt_id t).sub_const _).div_const d).neg
        have h2 := (h1.exp.const_sub 1).const_mul (q * incr F j)
        refine h2.congr_deriv ?_
        ring
      · simp only [D, if_neg hj]
        refine HasDerivAt.congr_of_eventuallyEq ?_ (hlt j (by omega))
        exact hasDerivAt_const t 0
    refine ⟨∑ j ∈ Finset.range n, D j, HasDerivAt.fun_sum fun j _ => hD j, ?_⟩
    have hsum : ∀ f : ℕ → ℝ, (∀ j, k < j → f j = 0) →
        ∑ j ∈ Finset.range n, f j = ∑ j ∈ Finset.range (k + 1), f j := by
      intro f hf
      symm
      refine Finset.sum_subset (fun j hj => ?_) (fun j _ hj => ?_)
      · rw [Finset.mem_range] at *; omega
      · rw [Finset.mem_range] at hj; exact hf j (by omega)
    rw [hsum D (fun j hj => by simp only [D, if_neg (show ¬ j ≤ k by omega)]),
      hsum (fun j => term j t) (fun j hj => (hlt j hj).eq_of_nhds), ← sum_incr F k, Finset.mul_sum, Finset.mul_sum,
      ← Finset.sum_sub_distrib]
    refine Finset.sum_congr rfl fun j hj => ?_
    have hj' : j ≤ k := by rw [Finset.mem_range] at hj; omega
    simp only [D, if_pos hj']
    rw [(hge j hj').eq_of_nhds]
    field_simp
    ring

/-! ## Box temperatures of any successful run -/

variable {N : Type} [Fintype N] [DecidableEq N] {R : Registry N XR}

theorem calcNextTemp_ok {dt t q d f : ℝ} {x : XR}
    (h : IRM.calcNextTemp (XR.fin dt) (XR.fin t) (XR.fin q) (XR.fin d) (XR.fin f) = .ok x) :
    d ≠ 0 ∧ x = .fin (q * f + (t - q * f) * Real.exp (-(dt / d))) := by
  by_cases hd : d = 0
  · subst hd
    simp [IRM.calcNextTemp, pyDiv, bind, Except.bind] at h
  · rw [calcNextTemp_fin hd] at h
    injection h with h
    exact ⟨hd, h.symm⟩

theorem IRM.boxes_val (L : R.Lawful) {m : IRM N XR} {p : IRPar} (hc : m.Coherent R) (hp : m.Phys R p)
    {d : DArg N XR} {n : ℕ} {F : ℕ → ℝ} (hd : IsForcing R d n F) {T1 T2 U : ℕ → ℝ}
    (h : IRM.Produces R m d n T1 T2 U) :
    (∀ i < n, T1 i = p.T1 F i ∧ T2 i = p.T2 F i) ∧ (1 < n → p.d1 ≠ 0 ∧ p.d2 ≠ 0) := by
  obtain ⟨m', hm', ho⟩ := h
  obtain ⟨vals', u', v, hg', rfl, hI⟩ := IRM.simulate_ok hm'
  obtain ⟨vals, u, rfl, hlen, -, hmF⟩ := hd.good L
  obtain ⟨h1, -⟩ := hg'
  cases h1
  rw [hmF] at hI
  simp only [IRM.outputs, IRM.setView, List.cons.injEq, Prod.mk.injEq, true_and, and_true] at ho
  obtain ⟨o1, o2, -, -⟩ := ho
  have e1 : m.core.deltaTMag = .fin p.dt := by rw [hc.core.dtMag]; exact hp.dt.magIn
  have e2 : m.q1Mag = .fin p.q1 := by rw [hc.q1Mag]; exact hp.q1.magIn
  have e3 : m.q2Mag = .fin p.q2 := by rw [hc.q2Mag]; exact hp.q2.magIn
  have e4 : m.d1Mag = .fin p.d1 := by rw [hc.d1Mag]; exact hp.d1.magIn
  have e5 : m.d2Mag = .fin p.d2 := by rw [hc.d2Mag]; exact hp.d2.magIn
  have key : ∀ i x, i < n → (m.eng R).seq (series n F) i = .ok x →
      x.1 = .fin (p.T1 F i) ∧ x.2.1 = .fin (p.T2 F i) ∧ (i ≠ 0 → p.d1 ≠ 0 ∧ p.d2 ≠ 0) := by
    intro i
    induction i with
    | zero =>
      intro x _ hx
      simp only [Eng.seq, Except.ok.injEq] at hx
      subst hx
      simp
    | succ i ih =>
      intro x hi hx
      simp only [Eng.seq] at hx
      cases hs : (m.eng R).seq (series n F) i with
      | error e => rw [hs] at hx; cases hx
      | ok y =>
        obtain ⟨a, b, c⟩ := y
        obtain ⟨ha, hb, -⟩ := ih _ (by omega) hs
        simp only at ha hb
        subst ha hb
        rw [hs] at hx
        simp only [getAt, series_getElem? n F i (by omega)] at hx
        simp only [IRM.eng, e1, e2, e3, e4, e5] at hx
        split at hx
        · cases hx
        · next a' ha' =>
          split at hx
          · cases hx
          · next b' hb' =>
            split at hx
            · cases hx
            · injection hx with hx
              subst hx
              obtain ⟨k1, k2⟩ := calcNextTemp_ok ha'
              obtain ⟨k3, k4⟩ := calcNextTemp_ok hb'
              exact ⟨k2, k4, fun _ => ⟨k1, k3⟩⟩
  refine ⟨fun i hi => ?_, fun hn => ?_⟩
  · obtain ⟨a, b, c, g1, g2, g3, -⟩ := hI.done i (by omega)
    obtain ⟨ha, hb, -⟩ := key i _ hi g1
    simp only at ha hb
    subst ha hb
    rw [o1, series_getElem? n T1 i hi] at g2
    rw [o2, series_getElem? n T2 i hi] at g3
    simp only [Option.some.injEq, XR.fin_inj] at g2 g3
    exact ⟨g2, g3⟩
  · obtain ⟨a, b, c, g1, -⟩ := hI.done 1 (by omega)
    exact (key 1 _ hn g1).2.2 (by omega)

end TwoLayer
