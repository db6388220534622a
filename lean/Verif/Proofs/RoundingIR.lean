import Verif.Proofs.RoundingTL
import Verif.Proofs.IRMath

/-! # Rounding errors of an impulse response run -/

set_option linter.unusedSimpArgs false
set_option linter.unusedSectionVars false

namespace TwoLayer

section
variable {r : Rounding} {u μ Ω : ℝ}

theorem exp_neg_sub {a b : ℝ} (h : a ≤ b) : Real.exp (-a) - Real.exp (-b) ≤ Real.exp (-a) * (b - a) := by
  have h1 : Real.exp (-b) = Real.exp (-a) * Real.exp (-(b - a)) := by rw [← Real.exp_add]; congr 1; ring
  have h2 := Real.add_one_le_exp (-(b - a))
  have h3 := Real.exp_pos (-a)
  rw [h1]
  nlinarith

/-- `exp` is insensitive to a relative error of its negative argument -/
theorem exp_rel {x y : ℝ} (hx : 0 ≤ x) (hu : 0 ≤ u) (hu1 : u ≤ 1 / 100) (h : |y - x| ≤ u * x) :
    |Real.exp (-y) - Real.exp (-x)| ≤ u := by
  have key : ∀ m, (1 - u) * x ≤ m → Real.exp (-m) * (u * x) ≤ u := by
    intro m hm
    have hm0 : 0 ≤ m := le_trans (mul_nonneg (by linarith) hx) hm
    have h1 := Real.quadratic_le_exp_of_nonneg hm0
    have h2 : x ≤ Real.exp m := by
      have : 99 / 100 * x ≤ m := le_trans (mul_le_mul_of_nonneg_right (by linarith) hx) hm
      nlinarith
    have h3 : Real.exp (-m) * Real.exp m = 1 := by rw [← Real.exp_add]; simp
    calc Real.exp (-m) * (u * x) = u * (Real.exp (-m) * x) := by ring
      _ ≤ u * (Real.exp (-m) * Real.exp m) := by gcongr
      _ = u := by rw [h3, mul_one]
  obtain ⟨h1, h2⟩ := abs_le.mp h
  rcases le_total y x with hyx | hyx
  · rw [abs_of_nonneg (sub_nonneg.mpr (Real.exp_le_exp.mpr (by linarith)))]
    refine (exp_neg_sub hyx).trans (le_trans ?_ (key y (by linarith)))
    gcongr; linarith
  · rw [abs_sub_comm, abs_of_nonneg (sub_nonneg.mpr (Real.exp_le_exp.mpr (by linarith)))]
    refine (exp_neg_sub hyx).trans (le_trans ?_ (key x ?_))
    · gcongr; 
    · nlinarith

/-- the computed decay factor -/
theorem decay_err (hr : r.Accurate u μ Ω) (hu : 0 ≤ u) (hu1 : u ≤ 1 / 100) (hμ : μ ≤ 1) {x : ℝ} (hx : 0 ≤ x) (hx1 : μ ≤ x)
    (hx2 : x ≤ Ω) : Ap u 2 (Real.exp (-x)) 1 (r.exp (r.fl (-x))) := by
  have h1 := hr.fl (-x) (by rwa [abs_neg, abs_of_nonneg hx])
  rw [abs_neg, abs_of_nonneg hx, max_eq_left hx1] at h1
  obtain ⟨y, hy⟩ : ∃ y, r.fl (-x) = -y := ⟨-r.fl (-x), by ring⟩
  rw [hy] at h1 ⊢
  have h2 : |y - x| ≤ u * x := by
    rw [show y - x = -(-y - -x) by ring, abs_neg]; exact h1
  have hy0 : 0 ≤ y := by
    have := (abs_le.mp h2).1
    nlinarith
  have h3 := hr.exp (-y) (by linarith)
  have h4 : Real.exp (-y) ≤ 1 := Real.exp_le_one_iff.mpr (by linarith)
  have h5 : Real.exp (-x) ≤ 1 := Real.exp_le_one_iff.mpr (by linarith)
  refine ⟨by rw [abs_of_pos (Real.exp_pos _)]; exact h5, ?_⟩
  calc |r.exp (-y) - Real.exp (-x)| = |(r.exp (-y) - Real.exp (-y)) + (Real.exp (-y) - Real.exp (-x))| := by congr 1; ring
    _ ≤ |r.exp (-y) - Real.exp (-y)| + |Real.exp (-y) - Real.exp (-x)| := abs_add_le _ _
    _ ≤ u * 1 + u := by
        refine add_le_add (h3.trans ?_) (exp_rel hx hu hu1 h2)
        gcongr; exact max_le h4 hμ
    _ ≤ ((1 + u) ^ 2 - 1) * 1 := by nlinarith [sq_nonneg u]

/-- the rounded box update -/
noncomputable def fbox (r : Rounding) (q d dt F t : ℝ) : ℝ :=
  r.fl (r.fl (t * r.exp (r.fl (-dt / d))) + r.fl (r.fl (F * q) * r.fl (r.fl 1 - r.exp (r.fl (-dt / d)))))

theorem fbox_err (hr : r.Accurate u μ Ω) (hu : 0 ≤ u) (hu1 : u ≤ 1 / 100) (hμ : μ ≤ 1) (hΩ : 64 ≤ Ω) {q d dt M : ℝ}
    (hq : 0 < q) (hd : 0 < d) (hdt : 0 < dt) (hx1 : μ ≤ dt / d) (hx2 : dt / d ≤ Ω) (hM1 : μ ≤ q * M) (hM2 : 64 * (q * M) ≤ Ω)
    (hM : 0 ≤ M) {F t : ℝ} (hF : |F| ≤ M) (ht : |t| ≤ 2 * (q * M)) :
    |fbox r q d dt F t - (q * F + (t - q * F) * Real.exp (-(dt / d)))| ≤ 32 * u * (q * M) := by
  have p2 : ∀ {k : ℕ} {B : ℝ}, k ≤ 7 → 0 ≤ B → 2 * B ≤ Ω → (1 + u) ^ k * B ≤ Ω := fun hk hB hΩ =>
    (mul_le_mul_of_nonneg_right (pow_le_two hu hu1 hk) hB).trans hΩ
  have hK : 0 ≤ q * M := by positivity
  have e := decay_err hr hu hu1 hμ (div_pos hdt hd).le hx1 hx2
  have a0 : Ap u 0 (1 : ℝ) 1 1 := Ap.exact (by simp)
  have a1 := a0.round hr hu hμ (p2 (by norm_num) (by norm_num) (by linarith))
  have a2 := ((a1.mono hu (by norm_num : 0 + 1 ≤ 2) le_rfl).sub e).round hr hu (by linarith) (p2 (by norm_num) (by norm_num) (by linarith))
  have xt : Ap u 0 t (2 * (q * M)) t := Ap.exact ht
  have b1 := (xt.mul hu e).round hr hu (by linarith) (p2 (by norm_num) (by positivity) (by linarith))
  have xF : Ap u 0 (F * q) (q * M) (F * q) := Ap.exact (by rw [abs_mul, abs_of_pos hq, mul_comm]; gcongr)
  have c1 := xF.round hr hu hM1 (p2 (by norm_num) hK (by linarith))
  have c2 := (c1.mul hu a2).round hr hu (by linarith) (p2 (by norm_num) (by positivity) (by linarith))
  have f := ((b1.mono hu (by norm_num : 0 + 2 + 1 ≤ 0 + 1 + (2 + 1) + 1) le_rfl).add c2).round hr hu (by linarith)
    (p2 (by norm_num) (by positivity) (by linarith))
  have f' := f.mono hu (by norm_num : 0 + 1 + (2 + 1) + 1 + 1 ≤ 7) (le_refl _)
  have h1 : q * F + (t - q * F) * Real.exp (-(dt / d)) = t * Real.exp (-(dt / d)) + F * q * (1 - Real.exp (-(dt / d))) := by
    ring
  rw [h1, fbox, neg_div]
  calc _ ≤ _ := f'.2
    _ ≤ 8 * u * (2 * (q * M) * 1 + q * M * (1 + 1)) := by
        have := gamma7 hu hu1
        gcongr
    _ = _ := by ring

/-- the rounded box -/
noncomputable def fboxes (r : Rounding) (q d dt : ℝ) (F : ℕ → ℝ) : ℕ → ℝ
  | 0 => 0
  | i + 1 => fbox r q d dt (F i) (fboxes r q d dt F i)

theorem fboxes_err (hr : r.Accurate u μ Ω) (hu : 0 ≤ u) (hu1 : u ≤ 1 / 100) (hμ : μ ≤ 1) (hΩ : 64 ≤ Ω) {q d dt M : ℝ}
    (hq : 0 < q) (hd : 0 < d) (hdt : 0 < dt) (hx1 : μ ≤ dt / d) (hx2 : dt / d ≤ Ω) (hM1 : μ ≤ q * M) (hM2 : 64 * (q * M) ≤ Ω)
    (hM : 0 ≤ M) (hκ : 32 * u * (1 + d / dt) ≤ 1) {n : ℕ} {F T : ℕ → ℝ} (hF : ∀ i < n, |F i| ≤ M) (hT : BoxEq q d dt n F T) :
    ∀ i < n, |T i| ≤ q * M ∧ |fboxes r q d dt F i - T i| ≤ 32 * u * (q * M) * (1 + d / dt) ∧
      |fboxes r q d dt F i| ≤ 2 * (q * M) := by
  have hK : 0 ≤ q * M := by positivity
  set δ := 32 * u * (q * M) with hδ
  have hδ0 : 0 ≤ δ := by positivity
  set E := Real.exp (-(dt / d)) with hE
  have hE0 : 0 < E := Real.exp_pos _
  have hE1 : E ≤ 1 := Real.exp_le_one_iff.mpr (by have := div_pos hdt hd; linarith)
  have hEm : E * (1 + dt / d) ≤ 1 := by
    have h1 := Real.add_one_le_exp (dt / d)
    have h2 : E * Real.exp (dt / d) = 1 := by rw [hE, ← Real.exp_add]; simp
    nlinarith
  have hmem : 1 + E * (1 + d / dt) ≤ 1 + d / dt := by
    have h3 : 0 < d / dt := div_pos hd hdt
    have h4 : E * (1 + dt / d) * (d / dt) = E * (1 + d / dt) := by field_simp; ring
    have : E * (1 + dt / d) * (d / dt) ≤ 1 * (d / dt) := by gcongr
    linarith
  have hErr : δ * (1 + d / dt) ≤ q * M := by
    have : δ * (1 + d / dt) = (32 * u * (1 + d / dt)) * (q * M) := by rw [hδ]; ring
    rw [this]; exact mul_le_of_le_one_left hK hκ
  have hmem0 : 0 ≤ 1 + d / dt := by positivity
  have size : ∀ {x y : ℝ}, |y| ≤ q * M → |x - y| ≤ δ * (1 + d / dt) → |x| ≤ 2 * (q * M) := by
    intro x y h1 h2
    calc |x| = |(x - y) + y| := by congr 1; ring
      _ ≤ |x - y| + |y| := abs_add_le _ _
      _ ≤ _ := by linarith
  intro i
  induction i with
  | zero =>
    intro hi
    have : T 0 = 0 := hT.1 hi
    have hz : |fboxes r q d dt F 0 - T 0| ≤ δ * (1 + d / dt) := by
      rw [this]; simp only [fboxes, sub_zero, abs_zero]; positivity
    have hb : |T 0| ≤ q * M := by rw [this, abs_zero]; exact hK
    exact ⟨hb, hz, size hb hz⟩
  | succ i ih =>
    intro hi
    obtain ⟨h1, h2, h3⟩ := ih (by omega)
    have hstep := hT.2 i hi
    have hFi := hF i (by omega)
    have hqF : |q * F i| ≤ q * M := by rw [abs_mul, abs_of_pos hq]; gcongr
    have hb : |T (i + 1)| ≤ q * M := by
      rw [hstep, show q * F i + (T i - q * F i) * Real.exp (-(dt / d)) = (1 - E) * (q * F i) + E * T i by rw [hE]; ring]
      calc _ ≤ |(1 - E) * (q * F i)| + |E * T i| := abs_add_le _ _
        _ = (1 - E) * |q * F i| + E * |T i| := by rw [abs_mul (1 - E), abs_mul E, abs_of_pos hE0, abs_of_nonneg (by linarith : 0 ≤ 1 - E)]
        _ ≤ (1 - E) * (q * M) + E * (q * M) := by
            have : 0 ≤ 1 - E := by linarith
            gcongr
        _ = _ := by ring
    have e := fbox_err hr hu hu1 hμ hΩ hq hd hdt hx1 hx2 hM1 hM2 hM hFi h3
    have key : fboxes r q d dt F (i + 1) - T (i + 1) =
        (fbox r q d dt (F i) (fboxes r q d dt F i) -
          (q * F i + (fboxes r q d dt F i - q * F i) * Real.exp (-(dt / d)))) + E * (fboxes r q d dt F i - T i) := by
      rw [hstep, fboxes, hE]; ring
    have herr : |fboxes r q d dt F (i + 1) - T (i + 1)| ≤ δ * (1 + d / dt) := by
      rw [key]
      calc _ ≤ δ + E * (δ * (1 + d / dt)) := by
            refine (abs_add_le _ _).trans (add_le_add e ?_)
            rw [abs_mul, abs_of_pos hE0]
            gcongr
        _ = δ * (1 + E * (1 + d / dt)) := by ring
        _ ≤ _ := by gcongr
    exact ⟨hb, herr, size hb herr⟩
end

/-! ## The model at rounded numbers -/

section
variable {N : Type} [Fintype N] [DecidableEq N] {r : Rounding} {R : Registry N (FR r)}

theorem FR.pyDiv_fin (hz : r.fl 0 = 0) {x y : ℝ} (hy : y ≠ 0) :
    pyDiv (FR.fin x : FR r) (FR.fin y) = .ok (FR.fin (r.fl (x / y))) := by
  unfold pyDiv
  simp only [FR.ofNat_eq, Nat.cast_zero, hz, FR.eq_fin, hy, decide_false, Bool.false_and, Bool.false_eq_true, if_false]
  rw [FR.fin_div hy]

theorem fcalcNextTemp (hz : r.fl 0 = 0) {dt t q d f : ℝ} (hd : d ≠ 0) :
    IRM.calcNextTemp (FR.fin dt : FR r) (FR.fin t) (FR.fin q) (FR.fin d) (FR.fin f) = .ok (FR.fin (fbox r q d dt f t)) := by
  simp only [IRM.calcNextTemp, FR.fin_neg, FR.pyDiv_fin hz hd, bind, Except.bind, pure, Except.pure, FR.exp_fin, FR.ofNat_eq,
    FR.fin_mul, FR.fin_sub, FR.fin_add, Nat.cast_one]
  rfl

/-- whenever cell `i` has been computed, its box temperatures are the rounded boxes -/
theorem IRM.fseq {m : IRM N (FR r)} {p : IRPar} (hz : r.fl 0 = 0) (hc : m.Coherent R) (hp : m.FPhys R p) (h1 : p.d1 ≠ 0)
    (h2 : p.d2 ≠ 0) (n : ℕ) (F : ℕ → ℝ) : ∀ i < n, ∀ {a b c}, (m.eng R).seq (fseries n F) i = .ok (a, b, c) →
      a = FR.fin (fboxes r p.q1 p.d1 p.dt F i) ∧ b = FR.fin (fboxes r p.q2 p.d2 p.dt F i) := by
  have e1 : m.core.deltaTMag = FR.fin p.dt := by rw [hc.core.dtMag]; exact hp.dt.magIn
  have e2 : m.q1Mag = FR.fin p.q1 := by rw [hc.q1Mag]; exact hp.q1.magIn
  have e3 : m.q2Mag = FR.fin p.q2 := by rw [hc.q2Mag]; exact hp.q2.magIn
  have e4 : m.d1Mag = FR.fin p.d1 := by rw [hc.d1Mag]; exact hp.d1.magIn
  have e5 : m.d2Mag = FR.fin p.d2 := by rw [hc.d2Mag]; exact hp.d2.magIn
  intro i
  induction i with
  | zero =>
    intro _ a b c h
    simp [Eng.seq, hz] at h
    obtain ⟨rfl, rfl, -⟩ := h
    exact ⟨rfl, rfl⟩
  | succ i ih =>
    intro hi a b c h
    rw [Eng.seq] at h
    cases hs : (m.eng R).seq (fseries n F) i with
    | error x => rw [hs] at h; cases h
    | ok s =>
      obtain ⟨a', b', c'⟩ := s
      obtain ⟨rfl, rfl⟩ := ih (by omega) hs
      rw [hs] at h
      simp only [getAt, fseries_getElem? n F i (by omega)] at h
      simp only [IRM.eng, e1, e2, e3, e4, e5, fcalcNextTemp hz h1, fcalcNextTemp hz h2] at h
      split at h
      · cases h
      · simp only [Except.ok.injEq, Prod.mk.injEq] at h
        obtain ⟨rfl, rfl, -⟩ := h
        exact ⟨rfl, rfl⟩

theorem fseries_add (n : ℕ) (f g : ℕ → ℝ) : List.zipWith (· + ·) (fseries n f) (fseries n g : List (FR r)) =
    fseries n fun i => r.fl (f i + g i) := by
  apply eq_fseries (by simp [fseries_length])
  intro i hi
  rw [List.getElem?_zipWith, fseries_getElem? _ _ _ hi, fseries_getElem? _ _ _ hi]
  rfl

theorem IRM.fproduces {m m' : IRM N (FR r)} {p : IRPar} (hz : r.fl 0 = 0) (hc : m.Coherent R) (hp : m.FPhys R p)
    (h1 : p.d1 ≠ 0) (h2 : p.d2 ≠ 0) {d : DArg N (FR r)} {n : ℕ} (hn : n ≠ 0) {F : ℕ → ℝ} (hd : IsFForcing R d n F)
    (hrun : IRM.simulate R d m = (m', .ok ())) :
    ∃ us, IRM.FProduces R m d n (fboxes r p.q1 p.d1 p.dt F) (fboxes r p.q2 p.d2 p.dt F)
      (fun i => r.fl (fboxes r p.q1 p.d1 p.dt F i + fboxes r p.q2 p.d2 p.dt F i)) us ∧ us.length = n ∧
      ∀ i < n, ∃ c, us[i]? = some c ∧ (m.eng R).seq (fseries n F) i =
        .ok (FR.fin (fboxes r p.q1 p.d1 p.dt F i), FR.fin (fboxes r p.q2 p.d2 p.dt F i), c) := by
  obtain ⟨vals, u, rfl, hlen, hg, hmF⟩ := hd.good hn
  obtain ⟨vals', u', v, hg', rfl, hI⟩ := IRM.simulate_ok hrun
  obtain ⟨h1', -⟩ := hg'
  cases h1'
  rw [hmF] at hI
  have lA := hI.lA; have lB := hI.lB; have lC := hI.lC
  rw [fseries_length] at lA lB lC
  have key : ∀ i < n, v.A[i]? = some (FR.fin (fboxes r p.q1 p.d1 p.dt F i)) ∧
      v.B[i]? = some (FR.fin (fboxes r p.q2 p.d2 p.dt F i)) ∧ ∃ c, v.C[i]? = some c ∧ (m.eng R).seq (fseries n F) i =
        .ok (FR.fin (fboxes r p.q1 p.d1 p.dt F i), FR.fin (fboxes r p.q2 p.d2 p.dt F i), c) := by
    intro i hi
    obtain ⟨a, b, c, g1, g2, g3, g4⟩ := hI.done i (by omega)
    obtain ⟨rfl, rfl⟩ := IRM.fseq hz hc hp h1 h2 n F i hi g1
    exact ⟨g2, g3, c, g4, g1⟩
  refine ⟨v.C, ⟨_, hrun, ?_⟩, lC, fun i hi => (key i hi).2.2⟩
  simp only [IRM.outputs, IRM.setView]
  rw [eq_fseries lA fun i hi => (key i hi).1, eq_fseries lB fun i hi => (key i hi).2.1, fseries_add]

/-! ### Heat uptake, efficacy 1 -/

section
variable {u μ Ω : ℝ}

/-- a rounded normal number is close to the number -/
theorem Rounding.Accurate.near (hr : r.Accurate u μ Ω) (hu1 : u ≤ 1 / 100) {x : ℝ} (h0 : 0 < x) (h1 : μ ≤ x)
    (h2 : x ≤ Ω) : x / 2 ≤ r.fl x ∧ r.fl x ≤ 2 * x := by
  have h := hr.fl x (by rwa [abs_of_pos h0])
  rw [abs_of_pos h0, max_eq_left h1, abs_le] at h
  constructor <;> nlinarith [h.1, h.2]

/-- `lambda0` as computed -/
noncomputable def IRPar.fl0 (r : Rounding) (p : IRPar) : ℝ := r.fl (r.fl 1 / r.fl (p.q1 + p.q2))

theorem IRPar.fl0_err (hr : r.Accurate u μ Ω) (hu : 0 ≤ u) (hu1 : u ≤ 1 / 100) {p : IRPar} (hq1 : 0 < p.q1) (hq2 : 0 < p.q2)
    (hμ : μ ≤ 1) (hΩ : 64 ≤ Ω) (hin : p.ConvInRange μ Ω) (hμ0 : 0 ≤ μ) :
    Ap u 4 (1 / (p.q1 + p.q2)) (1 / (p.q1 + p.q2)) (p.fl0 r) := by
  obtain ⟨-, hin⟩ := hin
  simp only [List.forall_mem_cons, List.not_mem_nil, IsEmpty.forall_iff, forall_const, and_true] at hin
  obtain ⟨⟨m1, o1⟩, ⟨m2, o2⟩, -⟩ := hin
  set s := p.q1 + p.q2 with hs
  have hs0 : 0 < s := by positivity
  have hs1 := hr.fl s (by rw [abs_of_pos hs0]; linarith)
  rw [abs_of_pos hs0, max_eq_left (by linarith), abs_le] at hs1
  have h1 := hr.fl 1 (by rw [abs_one]; linarith)
  rw [abs_one, max_eq_left hμ, abs_le] at h1
  set s' := r.fl s
  set o := r.fl 1
  have hs' : (1 - u) * s ≤ s' := by linarith [hs1.1]
  have hs'0 : 0 < s' := lt_of_lt_of_le (mul_pos (by linarith) hs0) hs'
  have a : Ap u 3 (1 / s) (1 / s) (o / s') := by
    refine ⟨le_of_eq (abs_of_pos (by positivity)), ?_⟩
    have e : o / s' - 1 / s = (o * s - s') / (s' * s) := by field_simp
    rw [e, abs_div, abs_of_pos (by positivity : 0 < s' * s), div_le_iff₀ (by positivity)]
    have n1 : |o * s - s'| ≤ 2 * u * s := by
      rw [abs_le]; constructor <;> nlinarith [h1.1, h1.2, hs1.1, hs1.2]
    have n2 : 2 * u * s ≤ 3 * u * s' := by nlinarith [mul_nonneg hu hs0.le, mul_nonneg hu hs'0.le]
    have n3 : 3 * u ≤ (1 + u) ^ 3 - 1 := by nlinarith [pow_nonneg hu 2, pow_nonneg hu 3]
    calc _ ≤ 3 * u * s' := n1.trans n2
      _ ≤ ((1 + u) ^ 3 - 1) * s' := by gcongr
      _ = _ := by field_simp
  refine a.round hr hu (by linarith) ?_
  exact (mul_le_mul_of_nonneg_right (pow_le_two hu hu1 (by norm_num)) (by positivity)).trans (by linarith)

set_option maxHeartbeats 1000000 in
/-- the conversion to two-layer parameters succeeds -/
theorem IRM.fconv (hr : r.Accurate u μ Ω) (hu : 0 ≤ u) (hu1 : u ≤ 1 / 100) {m : IRM N (FR r)} {p : IRPar}
    (hp : m.FPhys R p) (hok : p.Ok) (hpl : m.PlainUnits R) (hμ : μ ≤ 1) (hμ0 : 0 ≤ μ) (hin : p.ConvInRange μ Ω) :
    ∃ t, m.getTwoLayerParameters R = .ok t ∧ t.lambda0.mag = FR.fin (p.fl0 r) := by
  have hz := hr.zero
  have hq1 := hok.q1; have hq2 := hok.q2; have hd1 := hok.d1; have hd2 := hok.d1.trans hok.d2
  have num : ∀ {q : Qty N (FR r)} {w : Units N} {x : ℝ}, IsFNum R q w x → q.unit = w → q = ⟨FR.fin x, w⟩ := by
    intro q w x h hw
    have := h.magIn
    rw [Qty.magIn, if_pos hw] at this
    cases q; simp_all
  have f1 := num hp.q1 hpl.q1
  have f2 := num hp.q2 hpl.q2
  have f3 := num hp.d1 hpl.d1
  have f4 := num hp.d2 hpl.d2
  obtain ⟨hΩ, hin'⟩ := hin
  simp only [List.forall_mem_cons, List.not_mem_nil, IsEmpty.forall_iff, forall_const, and_true] at hin'
  obtain ⟨⟨m1, o1⟩, ⟨m2, o2⟩, ⟨m3, o3⟩, ⟨m4, o4⟩, ⟨m5, o5⟩, ⟨m6, o6⟩, ⟨m7, o7⟩, ⟨m8, o8⟩⟩ := hin'
  set s := p.q1 + p.q2 with hs
  have hs0 : 0 < s := by positivity
  have near := fun {x : ℝ} => hr.near hu1 (x := x)
  have n1 := near (x := 1) (by norm_num) hμ (by linarith)
  have ns := near hs0 (by linarith) (by linarith)
  have ns0 : 0 < r.fl s := by linarith [ns.1]
  -- lambda0
  have l1 : 1 / s / 4 ≤ r.fl 1 / r.fl s := by
    rw [div_div, div_le_div_iff₀ (by positivity) ns0]; nlinarith [n1.1, ns.2]
  have l2 : r.fl 1 / r.fl s ≤ 4 * (1 / s) := by
    rw [div_le_iff₀ ns0]
    have : 4 * (1 / s) * r.fl s = 4 * (r.fl s / s) := by ring
    rw [this]
    have : 1 / 2 ≤ r.fl s / s := by rw [le_div_iff₀ hs0]; linarith [ns.1]
    linarith [n1.2]
  have l0 : 0 < r.fl 1 / r.fl s := lt_of_lt_of_le (by positivity) l1
  have nl := near l0 (by linarith) (by linarith)
  have L1 : 1 / s / 8 ≤ p.fl0 r := by have := nl.1; unfold IRPar.fl0; linarith
  have L2 : p.fl0 r ≤ 8 * (1 / s) := by have := nl.2; unfold IRPar.fl0; linarith
  have L0 : 0 < p.fl0 r := lt_of_lt_of_le (by positivity) L1
  -- cden
  have c1 := near (mul_pos hq1 hd2) (by linarith) (by linarith)
  have c2 := near (mul_pos hq2 hd1) (by linarith) (by linarith)
  have p1 : 0 < p.q1 * p.d2 := mul_pos hq1 hd2
  have p2 : 0 < p.q2 * p.d1 := mul_pos hq2 hd1
  have c3 := near (x := r.fl (p.q1 * p.d2) + r.fl (p.q2 * p.d1)) (by linarith [c1.1, c2.1]) (by linarith [c1.1, c2.1])
    (by linarith [c1.2, c2.2])
  have c0 : r.fl (r.fl (p.q1 * p.d2) + r.fl (p.q2 * p.d1)) ≠ 0 := by linarith [c3.1, c1.1, c2.1]
  -- a1, a2
  have a1 : 1 / 8 * (p.q1 / s) ≤ p.fl0 r * p.q1 ∧ p.fl0 r * p.q1 ≤ 8 * (p.q1 / s) := by
    constructor
    · calc 1 / 8 * (p.q1 / s) = 1 / s / 8 * p.q1 := by ring
        _ ≤ _ := by gcongr
    · calc p.fl0 r * p.q1 ≤ 8 * (1 / s) * p.q1 := by gcongr
        _ = _ := by ring
  have a2 : 1 / 8 * (p.q2 / s) ≤ p.fl0 r * p.q2 ∧ p.fl0 r * p.q2 ≤ 8 * (p.q2 / s) := by
    constructor
    · calc 1 / 8 * (p.q2 / s) = 1 / s / 8 * p.q2 := by ring
        _ ≤ _ := by gcongr
    · calc p.fl0 r * p.q2 ≤ 8 * (1 / s) * p.q2 := by gcongr
        _ = _ := by ring
  have na1 := near (mul_pos L0 hq1) (by linarith [a1.1]) (by linarith [a1.2])
  have na2 := near (mul_pos L0 hq2) (by linarith [a2.1]) (by linarith [a2.2])
  set A1 := r.fl (p.fl0 r * p.q1)
  set A2 := r.fl (p.fl0 r * p.q2)
  have A1l : 1 / 16 * (p.q1 / s) ≤ A1 := by linarith [na1.1, a1.1]
  have A1u : A1 ≤ 16 * (p.q1 / s) := by linarith [na1.2, a1.2]
  have A2l : 1 / 16 * (p.q2 / s) ≤ A2 := by linarith [na2.1, a2.1]
  have A2u : A2 ≤ 16 * (p.q2 / s) := by linarith [na2.2, a2.2]
  have p5 : 0 < p.q1 / s := by positivity
  have p6 : 0 < p.q2 / s := by positivity
  have p7 : 0 < p.d1 * (p.q2 / s) := by positivity
  have p8 : 0 < p.d2 * (p.q1 / s) := by positivity
  have b1l : 1 / 16 * (p.d1 * (p.q2 / s)) ≤ p.d1 * A2 := by
    calc _ = p.d1 * (1 / 16 * (p.q2 / s)) := by ring
      _ ≤ _ := by gcongr
  have b1u : p.d1 * A2 ≤ 16 * (p.d1 * (p.q2 / s)) := by
    calc _ ≤ p.d1 * (16 * (p.q2 / s)) := by gcongr
      _ = _ := by ring
  have b2l : 1 / 16 * (p.d2 * (p.q1 / s)) ≤ p.d2 * A1 := by
    calc _ = p.d2 * (1 / 16 * (p.q1 / s)) := by ring
      _ ≤ _ := by gcongr
  have b2u : p.d2 * A1 ≤ 16 * (p.d2 * (p.q1 / s)) := by
    calc _ ≤ p.d2 * (16 * (p.q1 / s)) := by gcongr
      _ = _ := by ring
  have nb1 := near (x := p.d1 * A2) (by linarith) (by linarith) (by linarith)
  have nb2 := near (x := p.d2 * A1) (by linarith) (by linarith) (by linarith)
  have nb3 := near (x := r.fl (p.d1 * A2) + r.fl (p.d2 * A1)) (by linarith [nb1.1, nb2.1]) (by linarith [nb1.1, nb2.1])
    (by linarith [nb1.2, nb2.2])
  have b0 : r.fl (r.fl (p.d1 * A2) + r.fl (p.d2 * A1)) ≠ 0 := by linarith [nb1.1, nb2.1, nb3.1]
  -- water
  have w1 := near (x := 1000) (by norm_num) (by linarith) (by linarith)
  have w2 := near (x := 4181) (by norm_num) (by linarith) (by linarith)
  have wl : 500 * 2090 ≤ r.fl 1000 * r.fl 4181 := mul_le_mul (by linarith [w1.1]) (by linarith [w2.1]) (by norm_num) (by linarith [w1.1])
  have wu : r.fl 1000 * r.fl 4181 ≤ 2000 * 8362 := mul_le_mul (by linarith [w1.2]) (by linarith [w2.2]) (by linarith [w2.1]) (by norm_num)
  have w3 := near (x := r.fl 1000 * r.fl 4181) (by linarith) (by linarith) (by linarith)
  have w0 : r.fl (r.fl 1000 * r.fl 4181) ≠ 0 := by linarith [w3.1]
  have e0 : (1 : ℝ) ≠ 0 := one_ne_zero
  have u1 : R.cwm2 + R.yr = R.cwm2 + R.yr := rfl
  have u2 : R.yr + (-R.cwm2 + R.cwm2) = R.yr := by rw [neg_add_cancel, add_zero]
  have u3 : R.yr + R.yr - (R.cwm2 + R.yr) = -R.cwm2 + R.yr := by abel
  have ns0' : r.fl (p.q1 + p.q2) ≠ 0 := ns0.ne'
  have b0' : r.fl (r.fl (p.d1 * r.fl (r.fl (r.fl 1 / r.fl (p.q1 + p.q2)) * p.q2)) +
    r.fl (p.d2 * r.fl (r.fl (r.fl 1 / r.fl (p.q1 + p.q2)) * p.q1))) ≠ 0 := b0
  simp only [IRM.getTwoLayerParameters, f1, f2, f3, f4, hpl.efficacy, Qty.add, Qty.ndiv, Qty.mul, Qty.div, Qty.sub,
      Qty.magIn, true_or, if_true, bind, Except.bind, pure, Except.pure, FR.fin_add, FR.fin_mul, FR.fin_sub, FR.ofNat_eq,
      Nat.cast_one, FR.pyDiv_fin hz ns0', FR.pyDiv_fin hz c0, FR.pyDiv_fin hz e0, FR.pyDiv_fin hz b0', Registry.densityWater,
      Registry.heatCapacityWater, Nat.cast_ofNat, FR.pyDiv_fin hz w0, u2, u3]
  exact ⟨_, rfl, rfl⟩

theorem IRM.fnextRndt (hr : r.Accurate u μ Ω) (hu : 0 ≤ u) (hu1 : u ≤ 1 / 100) {m : IRM N (FR r)} {p : IRPar}
    (hp : m.FPhys R p) (hok : p.Ok) (hpl : m.PlainUnits R) (hμ : μ ≤ 1) (hμ0 : 0 ≤ μ) (hin : p.ConvInRange μ Ω)
    (ho : r.fl 1 = 1) (t1 t2 f : ℝ) :
    m.calcNextRndt R (FR.fin t1) (FR.fin t2) (FR.fin f) (FR.fin 1) =
      .ok (FR.fin (r.fl (r.fl (f - r.fl (p.fl0 r * r.fl (t1 + t2)))))) := by
  obtain ⟨t, h1, h2⟩ := IRM.fconv hr hu hu1 hp hok hpl hμ hμ0 hin
  have hz := hr.zero
  simp only [IRM.calcNextRndt, h1, bind, Except.bind, pure, Except.pure, FR.ofNat_eq, Nat.cast_one, ho, FR.eq_fin, decide_true,
    if_true, h2, FR.fin_add, FR.fin_mul, FR.fin_sub, Nat.cast_zero, hz, sub_zero]

/-- the rounded heat uptake -/
noncomputable def IRPar.fU (r : Rounding) (p : IRPar) (F : ℕ → ℝ) : ℕ → ℝ
  | 0 => 0
  | i + 1 => r.fl (r.fl (F i - r.fl (p.fl0 r * r.fl (fboxes r p.q1 p.d1 p.dt F i + fboxes r p.q2 p.d2 p.dt F i))))

theorem IRM.fseq_one (hr : r.Accurate u μ Ω) (hu : 0 ≤ u) (hu1 : u ≤ 1 / 100) {m : IRM N (FR r)} {p : IRPar}
    (hc : m.Coherent R) (hp : m.FPhys R p) (hok : p.Ok) (hpl : m.PlainUnits R) (hμ : μ ≤ 1) (hμ0 : 0 ≤ μ)
    (hin : p.ConvInRange μ Ω) (ho : r.fl 1 = 1) (n : ℕ) (F : ℕ → ℝ) : ∀ i < n, (m.eng R).seq (fseries n F) i =
      .ok (FR.fin (fboxes r p.q1 p.d1 p.dt F i), FR.fin (fboxes r p.q2 p.d2 p.dt F i), FR.fin (p.fU r F i)) := by
  have hz := hr.zero
  have e1 : m.core.deltaTMag = FR.fin p.dt := by rw [hc.core.dtMag]; exact hp.dt.magIn
  have e2 : m.q1Mag = FR.fin p.q1 := by rw [hc.q1Mag]; exact hp.q1.magIn
  have e3 : m.q2Mag = FR.fin p.q2 := by rw [hc.q2Mag]; exact hp.q2.magIn
  have e4 : m.d1Mag = FR.fin p.d1 := by rw [hc.d1Mag]; exact hp.d1.magIn
  have e5 : m.d2Mag = FR.fin p.d2 := by rw [hc.d2Mag]; exact hp.d2.magIn
  have e6 : m.efficacyMag = FR.fin 1 := by rw [hc.efficacyMag, hpl.efficacy]; simp [Qty.magIn]
  intro i
  induction i with
  | zero => intro _; simp [Eng.seq, hz]; exact ⟨rfl, rfl, rfl⟩
  | succ i ih =>
    intro hi
    simp only [Eng.seq, ih (by omega), getAt, fseries_getElem? n F i (by omega)]
    simp only [IRM.eng, e1, e2, e3, e4, e5, e6, fcalcNextTemp hz hok.d1.ne', fcalcNextTemp hz (hok.d1.trans hok.d2).ne',
      IRM.fnextRndt hr hu hu1 hp hok hpl hμ hμ0 hin ho]
    rfl

theorem IRM.fsucceeds (hr : r.Accurate u μ Ω) (hu : 0 ≤ u) (hu1 : u ≤ 1 / 100) {m : IRM N (FR r)} {p : IRPar}
    (hc : m.Coherent R) (hp : m.FPhys R p) (hok : p.Ok) (hpl : m.PlainUnits R) (hμ : μ ≤ 1) (hμ0 : 0 ≤ μ)
    (hin : p.ConvInRange μ Ω) (ho : r.fl 1 = 1) {d : DArg N (FR r)} {n : ℕ} (hn : n ≠ 0) {F : ℕ → ℝ} (hd : IsFForcing R d n F) :
    ∃ m', IRM.simulate R d m = (m', .ok ()) := by
  obtain ⟨vals, w, rfl, hlen, hg, hmF⟩ := hd.good hn
  have hseq := IRM.fseq_one hr hu hu1 hc hp hok hpl hμ hμ0 hin ho n F
  have hsim := IRM.simulate_good R m hg
  obtain ⟨v, hv, hI⟩ := (IRM.stepper R).times_ok (m.ready R vals w) (modelF R vals w) rfl vals.length (by simp)
    (fun i hi => ⟨_, by rw [hmF]; exact hseq i (by omega)⟩)
  exact ⟨_, hsim.trans hv⟩

theorem IRPar.fU_err (hr : r.Accurate u μ Ω) (hu : 0 ≤ u) (hu1 : u ≤ 1 / 100) {p : IRPar} (hok : p.Ok) (hμ0 : 0 ≤ μ) {M : ℝ}
    (hM : 0 ≤ M) (hin : p.ConvInRange μ Ω) (hr' : p.InRange M μ Ω) {f t1 t2 : ℝ} (hf : |f| ≤ M) (h1 : |t1| ≤ 2 * (p.q1 * M))
    (h2 : |t2| ≤ 2 * (p.q2 * M)) :
    |r.fl (r.fl (f - r.fl (p.fl0 r * r.fl (t1 + t2)))) - (f - p.l * (t1 + t2))| ≤ 27 * u * M := by
  have hq1 := hok.q1; have hq2 := hok.q2
  obtain ⟨hμ, hΩ, hr'⟩ := hr'
  simp only [List.forall_mem_cons, List.not_mem_nil, IsEmpty.forall_iff, forall_const, and_true] at hr'
  obtain ⟨⟨m1, o1⟩, ⟨m2, o2⟩, ⟨m3, o3⟩, -, -, ⟨m6, o6⟩⟩ := hr'
  have hl := IRPar.fl0_err hr hu hu1 hq1 hq2 hμ hΩ hin hμ0
  have hs : 0 < p.q1 + p.q2 := by positivity
  have p3 : ∀ {k : ℕ} {B : ℝ}, k ≤ 7 → 0 ≤ B → 2 * B ≤ Ω → (1 + u) ^ k * B ≤ Ω := fun hk hB hΩ =>
    (mul_le_mul_of_nonneg_right (pow_le_two hu hu1 hk) hB).trans hΩ
  have k1 : 0 ≤ p.q1 * M := by positivity
  have k2 : 0 ≤ p.q2 * M := by positivity
  have x1 : Ap u 0 t1 (2 * (p.q1 * M)) t1 := Ap.exact h1
  have x2 : Ap u 0 t2 (2 * (p.q2 * M)) t2 := Ap.exact h2
  have a1 := (x1.add x2).round hr hu (by linarith) (p3 (by norm_num) (by positivity) (by linarith))
  have eB : 1 / (p.q1 + p.q2) * (2 * (p.q1 * M) + 2 * (p.q2 * M)) = 2 * M := by field_simp
  have a2 := hl.mul hu a1
  rw [eB] at a2
  have a3 := a2.round hr hu (by linarith) (p3 (by norm_num) (by positivity) (by linarith))
  have xf : Ap u 0 f M f := Ap.exact hf
  have a4 := ((xf.mono hu (by norm_num : 0 ≤ 4 + (0 + 1) + 1) le_rfl).sub a3).round hr hu (by linarith)
    (p3 (by norm_num) (by positivity) (by linarith))
  have a5 := a4.round hr hu (by linarith) (p3 (by norm_num) (by positivity) (by linarith))
  have e : p.l = 1 / (p.q1 + p.q2) := rfl
  rw [e]
  calc _ ≤ _ := a5.2
    _ ≤ 9 * u * (M + 2 * M) := by
        have g7 := gamma7 hu hu1
        have g8 : (1 + u) ^ 8 - 1 ≤ 9 * u := by
          have : (1 + u) ^ 8 = (1 + u) ^ 7 + u * (1 + u) ^ 7 := by ring
          have h7 := pow_le_two hu hu1 (le_refl 7)
          have h7' : (1 + u) ^ 7 ≤ 1 + 8 * u := by linarith
          have : (1 + u) ^ 8 - 1 = ((1 + u) ^ 7 - 1) + u * (1 + u) ^ 7 := by ring
          have sharp : (1 + u) ^ 7 - 1 ≤ 7.9 * u := by
            have : (1 + u) ^ 7 - 1 = u * (7 + 21 * u + 35 * u ^ 2 + 35 * u ^ 3 + 21 * u ^ 4 + 7 * u ^ 5 + u ^ 6) := by ring
            rw [this, mul_comm 7.9 u]
            apply mul_le_mul_of_nonneg_left _ hu
            have h2 : u ^ 2 ≤ u * (1 / 100) := by nlinarith
            have h3 : u ^ 3 ≤ u ^ 2 := pow_le_pow_of_le_one hu (by linarith) (by norm_num)
            have h4 : u ^ 4 ≤ u ^ 2 := pow_le_pow_of_le_one hu (by linarith) (by norm_num)
            have h5 : u ^ 5 ≤ u ^ 2 := pow_le_pow_of_le_one hu (by linarith) (by norm_num)
            have h6 : u ^ 6 ≤ u ^ 2 := pow_le_pow_of_le_one hu (by linarith) (by norm_num)
            norm_num; linarith
          have : u * (1 + u) ^ 7 ≤ 1.1 * u := by
            have : (1 + u) ^ 7 ≤ 1.1 := by norm_num at *; linarith
            nlinarith
          norm_num at *; linarith
        gcongr
    _ = _ := by ring
end
end
end TwoLayer
