import Verif.Proofs.RoundingConv
import Verif.Proofs.Geoffroy

/-! # Rounding errors of `_calculate_geoffroy_helper_parameters` -/

set_option linter.unusedSimpArgs false
set_option linter.unusedSectionVars false

namespace TwoLayer

theorem Geo.cond_sq {C D l e h : ℝ} (hC : 0 < C) (hD : 0 < D) (hl : 0 < l) (he : 0 < e) (hh : 0 < h) :
    Geo.cond C D l e h = Geo.b C D l e h / √(Geo.delta C D l e h) ∧
    Geo.cond C D l e h ^ 2 = Geo.b C D l e h ^ 2 / Geo.delta C D l e h ∧ 1 ≤ Geo.cond C D l e h := by
  have hs := Geo.sqrt_pos hC hD hl he hh
  have hb := Geo.sqrt_lt_b hC hD hl he hh
  have e1 : Geo.cond C D l e h = Geo.b C D l e h / √(Geo.delta C D l e h) := by
    unfold Geo.cond Geo.tau1 Geo.tau2
    have : 0 < C * D / (2 * l * h) := by positivity
    rw [← mul_add, ← mul_sub, mul_div_mul_left _ _ this.ne', div_eq_div_iff (by linarith) hs.ne']
    ring
  refine ⟨e1, by rw [e1, div_pow, Real.sq_sqrt (Geo.delta_pos hC hD hl he hh).le], ?_⟩
  rw [e1, le_div_iff₀ hs]; linarith

theorem pow_small {v : ℝ} (hv : 0 ≤ v) (k : ℕ) (h : k * v ≤ 1) : (1 + v) ^ k ≤ 1 + k * v + (k * v) ^ 2 := by
  have h0 : 0 ≤ k * v := by positivity
  have h1 : (1 + v) ^ k ≤ Real.exp (k * v) := by
    rw [Real.exp_nat_mul]
    exact pow_le_pow_left₀ (by linarith) (by linarith [Real.add_one_le_exp v]) k
  have h2 := Real.abs_exp_sub_one_sub_id_le (x := k * v) (by rwa [abs_of_nonneg h0])
  linarith [(abs_le.mp h2).2]

theorem Rounding.Accurate.weaken {r : Rounding} {u v μ Ω : ℝ} (hr : r.Accurate u μ Ω) (h : u ≤ v) : r.Accurate v μ Ω where
  zero := hr.zero
  fl x hx := (hr.fl x hx).trans (mul_le_mul_of_nonneg_right h ((abs_nonneg _).trans (le_max_left _ _)))
  exp x hx := (hr.exp x hx).trans (mul_le_mul_of_nonneg_right h ((Real.exp_pos _).le.trans (le_max_left _ _)))
  sqrt x hx := (hr.sqrt x hx).trans (mul_le_mul_of_nonneg_right h ((Real.sqrt_nonneg _).trans (le_max_left _ _)))

namespace Ap
variable {r : Rounding} {u μ Ω : ℝ} {k l : ℕ} {X Y B x y : ℝ}

theorem root (h : Ap u k X B x) (hX : 0 < X) (hx : 0 ≤ x) : Ap u k (√X) (B / √X) (√x) := by
  have hs := Real.sqrt_pos.mpr hX
  have hs' := Real.sqrt_nonneg x
  refine ⟨?_, ?_⟩
  · rw [abs_of_pos hs, le_div_iff₀ hs, Real.mul_self_sqrt hX.le]
    exact (le_abs_self _).trans h.1
  · have e : (√x - √X) * (√x + √X) = x - X := by
      have := Real.mul_self_sqrt hx; have := Real.mul_self_sqrt hX.le; nlinarith
    have e2 : |√x - √X| * (√x + √X) = |x - X| := by
      rw [← e, abs_mul, abs_of_pos (by linarith : 0 < √x + √X)]
    rw [← mul_div_assoc, le_div_iff₀ hs]
    calc |√x - √X| * √X ≤ |√x - √X| * (√x + √X) := mul_le_mul_of_nonneg_left (by linarith) (abs_nonneg _)
      _ = |x - X| := e2
      _ ≤ _ := h.2

theorem roundSqrt (hr : r.Accurate u μ Ω) (hu : 0 ≤ u) (hx : 0 ≤ x) (h : Ap u k X B (√x)) (hμ : μ ≤ B) :
    Ap u (k + 1) X B (r.sqrt x) := by
  have hb := h.B_nonneg
  have h1 : 1 ≤ (1 + u) ^ k := one_le_pow₀ (by linarith)
  have hs := h.size
  rw [abs_of_nonneg (Real.sqrt_nonneg x)] at hs
  have hm : max (√x) μ ≤ (1 + u) ^ k * B := max_le hs (hμ.trans (le_mul_of_one_le_left hb h1))
  have := hr.sqrt x hx
  refine ⟨h.1, ?_⟩
  calc |r.sqrt x - X| = |(r.sqrt x - √x) + (√x - X)| := by congr 1; ring
    _ ≤ |r.sqrt x - √x| + |√x - X| := abs_add_le _ _
    _ ≤ u * ((1 + u) ^ k * B) + ((1 + u) ^ k - 1) * B := add_le_add (this.trans (by gcongr)) h.2
    _ = _ := by rw [pow_succ]; ring

/-- an approximation of a positive number whose bound is not much larger than the number is positive -/
theorem pos_of {v c : ℝ} (h : Ap v k X B x) (hX : 0 < X) (hv : 0 ≤ v) (hk : (1 + v) ^ k - 1 ≤ 60 * v) (hB : B ≤ c * X)
    (hc : 60 * v * c ≤ 1 / 2) : 0 < x := by
  have h1 := (abs_le.mp h.2).1
  have h3 : ((1 + v) ^ k - 1) * B ≤ 60 * v * (c * X) := mul_le_mul hk hB h.B_nonneg (by linarith)
  have h4 : 60 * v * (c * X) ≤ 1 / 2 * X := by rw [← mul_assoc]; exact mul_le_mul_of_nonneg_right hc hX.le
  linarith

/-- larger unit of error, smaller bound -/
theorem rebase {v ε : ℝ} (h : Ap v k X B x) (hX : |X| ≤ Y) (hk : ((1 + v) ^ k - 1) * B ≤ ε * Y) : Ap ε 1 X Y x :=
  ⟨hX, h.2.trans (by rw [pow_one]; linarith)⟩

end Ap

/-! ## Quantities with rounded magnitudes -/

namespace FQ
variable {N : Type} [Fintype N] [DecidableEq N] {r : Rounding} {R : Registry N (FR r)} {x y : ℝ} {a b : Units N}

theorem mul : Qty.mul ⟨(FR.fin x : FR r), a⟩ ⟨FR.fin y, b⟩ = ⟨FR.fin (r.fl (x * y)), a + b⟩ := rfl
theorem nmul (n : ℕ) : Qty.nmul (Arith.ofNat n) ⟨(FR.fin x : FR r), a⟩ = ⟨FR.fin (r.fl (r.fl n * x)), a⟩ := rfl
theorem sq : Qty.sq ⟨(FR.fin x : FR r), a⟩ = ⟨FR.fin (r.fl (x * x)), a + a⟩ := rfl
theorem neg : Qty.neg ⟨(FR.fin x : FR r), a⟩ = ⟨FR.fin (-x), a⟩ := rfl
theorem div (hz : r.fl 0 = 0) (hy : y ≠ 0) :
    Qty.div ⟨(FR.fin x : FR r), a⟩ ⟨FR.fin y, b⟩ = .ok ⟨FR.fin (r.fl (x / y)), a - b⟩ := by
  unfold Qty.div; rw [FR.pyDiv_fin hz hy]; rfl
theorem add (h : b = a) : Qty.add R ⟨(FR.fin x : FR r), a⟩ ⟨FR.fin y, b⟩ = .ok ⟨FR.fin (r.fl (x + y)), a⟩ := by
  subst h; simp only [Qty.add, Qty.magIn, true_or, if_true]; rfl
theorem sub (h : b = a) : Qty.sub R ⟨(FR.fin x : FR r), a⟩ ⟨FR.fin y, b⟩ = .ok ⟨FR.fin (r.fl (x - y)), a⟩ := by
  subst h; simp only [Qty.sub, Qty.magIn, true_or, if_true]; rfl
theorem sqrt (hz : r.fl 0 = 0) (hx : 0 ≤ x) :
    Qty.sqrt ⟨(FR.fin x : FR r), a⟩ = .ok ⟨FR.fin (r.sqrt x), (1 / 2 : ℚ) • a⟩ := by
  have h1 : Arith.lt (FR.fin x : FR r) (Arith.ofNat 0) = false := by
    rw [FR.ofNat_eq, Nat.cast_zero, hz]
    show decide (x < 0) = false
    simpa using hx
  have h2 : (Arith.sqrt (FR.fin x : FR r)) = FR.fin (r.sqrt x) := by
    show (if x < 0 then XR.nan else XR.fin (r.sqrt x)) = _
    rw [if_neg (not_lt.mpr hx)]; rfl
  unfold Qty.sqrt
  rw [h1, h2]; rfl
end FQ

section
variable {N : Type} [Fintype N] [DecidableEq N] {r : Rounding} {R : Registry N (FR r)} {u v μ Ω : ℝ}

set_option maxHeartbeats 4000000 in
theorem geo_err (hr : r.Accurate v μ Ω) (hv : 0 ≤ v) {du dl l e h du' dl' l' h' : ℝ} (hdu : 0 < du) (hdl : 0 < dl) (hl : 0 < l)
    (he : 0 < e) (hh : 0 < h) (Adu : Ap v 1 du du du') (Adl : Ap v 1 dl dl dl') (Al : Ap v 1 l l l') (Ah : Ap v 1 h h h')
    {C D b δ : ℝ} (hC : C = du * 4181 * 1000) (hD : D = dl * 4181 * 1000) (hb : b = Geo.b C D l e h) (hδ : δ = Geo.delta C D l e h)
    (hκ : 20000 * v * (b ^ 2 / δ) ≤ 1) (hin : ∀ x ∈ Geo.sizes du dl l e h, μ ≤ x ∧ 2 * x ≤ Ω) (z w : Units N) :
    ∃ c t1 t2 f1 f2 : ℝ, ∃ g, geoffroy R ⟨FR.fin du', z⟩ ⟨FR.fin dl', z⟩ ⟨FR.fin l', w⟩ ⟨FR.fin e, R.one⟩ ⟨FR.fin h', w⟩ = .ok g ∧
      g.C = ⟨FR.fin c, z + R.heatCapacityWater.unit + R.densityWater.unit⟩ ∧
      g.tau1 = ⟨FR.fin t1, z + R.heatCapacityWater.unit + R.densityWater.unit - w⟩ ∧
      g.tau2 = ⟨FR.fin t2, z + R.heatCapacityWater.unit + R.densityWater.unit - w⟩ ∧
      g.phi1 = ⟨FR.fin f1, 0⟩ ∧ g.phi2 = ⟨FR.fin f2, 0⟩ ∧
      Ap v 5 C C c ∧
      Ap v 57 (Geo.tau1 C D l e h) (C * D / (2 * l * h) * (b + 2 * b ^ 2 / √δ)) t1 ∧
      Ap v 57 (Geo.tau2 C D l e h) (C * D / (2 * l * h) * (b + 2 * b ^ 2 / √δ)) t2 ∧
      Ap v 49 (Geo.phi1 C D l e h) (C / (2 * e * h) * (b + 2 * b ^ 2 / √δ)) f1 ∧
      Ap v 49 (Geo.phi2 C D l e h) (C / (2 * e * h) * (b + 2 * b ^ 2 / √δ)) f2 ∧
      Ap v 50 (Geo.phi2 C D l e h - Geo.phi1 C D l e h) (2 * (C / (2 * e * h) * (b + 2 * b ^ 2 / √δ))) (r.fl (f2 - f1)) ∧
      0 < r.fl (f2 - f1) ∧ 0 < r.fl (c * r.fl (f2 - f1)) := by
  have hz := hr.zero
  have hC0 : 0 < C := by rw [hC]; positivity
  have hD0 : 0 < D := by rw [hD]; positivity
  have hδ0 : 0 < δ := by rw [hδ]; exact Geo.delta_pos hC0 hD0 hl he hh
  have hb0 : 0 < b := by rw [hb]; exact Geo.b_pos hC0 hD0 hl he hh
  have hs0 : 0 < √δ := Real.sqrt_pos.mpr hδ0
  have hsb : √δ < b := by rw [hδ, hb]; exact Geo.sqrt_lt_b hC0 hD0 hl he hh
  have hss : √δ * √δ = δ := Real.mul_self_sqrt hδ0.le
  have hκ1 : 1 ≤ b ^ 2 / δ := by rw [le_div_iff₀ hδ0, ← hss]; nlinarith only [hsb, hs0]
  have hv1 : 20000 * v ≤ 1 := by nlinarith only [hκ, hκ1, hv]
  have hb' : b = (l + e * h) / C + h / D := by rw [hb]; rfl
  have hδ' : δ = b * b - 4 * l * h / (C * D) := by rw [hδ, hb]; unfold Geo.delta; ring
  obtain ⟨g, hg⟩ : ∃ g, g = b + 2 * b ^ 2 / √δ := ⟨_, rfl⟩
  have hg0 : 0 < g := by rw [hg]; positivity
  have hgs : g ≤ 3 * (b ^ 2 / δ) * √δ := by
    have e1 : b ^ 2 / δ * √δ = b ^ 2 / √δ := by
      rw [div_mul_eq_mul_div, div_eq_div_iff hδ0.ne' hs0.ne', mul_assoc, hss]
    have e2 : b ≤ b ^ 2 / √δ := by rw [le_div_iff₀ hs0]; nlinarith only [hsb, hs0]
    rw [mul_assoc, e1, hg]
    have : 2 * b ^ 2 / √δ = 2 * (b ^ 2 / √δ) := by ring
    linarith
  unfold Geo.sizes at hin
  simp only [← hC, ← hD, ← hb, ← hδ, ← hg] at hin
  simp only [List.forall_mem_cons, List.not_mem_nil, IsEmpty.forall_iff, forall_const, and_true] at hin
  obtain ⟨⟨m1, o1⟩, ⟨m2, o2⟩, ⟨m3, o3⟩, ⟨m4, o4⟩, ⟨m5, o5⟩, ⟨m6, o6⟩, ⟨m7, o7⟩, ⟨m8, o8⟩, ⟨m9, o9⟩, ⟨m10, o10⟩, ⟨m11, o11⟩,
    ⟨m12, o12⟩, ⟨m13, o13⟩, ⟨m14, o14⟩, ⟨m15, o15⟩, ⟨m16, o16⟩, ⟨m17, o17⟩, ⟨m18, o18⟩, ⟨m19, o19⟩, ⟨m20, o20⟩, ⟨m21, o21⟩,
    ⟨m22, o22⟩, ⟨m23, o23⟩, ⟨m24, o24⟩, ⟨m25, o25⟩, ⟨m26, o26⟩, ⟨m27, o27⟩, ⟨m28, o28⟩, ⟨m29, o29⟩, ⟨m30, o30⟩, ⟨m31, o31⟩⟩ := hin
  have p60 : ∀ {k : ℕ}, k ≤ 57 → (1 + v) ^ k - 1 ≤ 60 * v := by
    intro k hk
    have h1 : (1 + v) ^ k ≤ (1 + v) ^ 57 := pow_le_pow_right₀ (by linarith) hk
    have h2 := pow_small hv 57 (by norm_num; linarith)
    norm_num at h2
    nlinarith only [h1, h2, hv, hv1]
  have sm : ∀ {k : ℕ}, k ≤ 57 → (1 + v) ^ k ≤ 3 / 2 := by
    intro k hk
    have := p60 hk
    linarith only [this, hv1]
  have ex : ∀ {x : ℝ}, 0 < x → Ap v 0 x x x := fun h => Ap.exact (abs_of_pos h).le
  have rd : ∀ {k : ℕ} {X B x : ℝ}, Ap v k X B x → μ ≤ B → 2 * B ≤ Ω → k ≤ 57 → Ap v (k + 1) X B (r.fl x) := by
    intro k X B x h h1 h2 hk
    refine h.round hr hv h1 (le_trans ?_ h2)
    have := sm hk
    exact mul_le_mul_of_nonneg_right (by linarith) h.B_nonneg
  -- heat capacities
  have k1 := rd (ex (by norm_num : (0 : ℝ) < 4181)) m1 o1 (by norm_num)
  have k2 := rd (ex (by norm_num : (0 : ℝ) < 1000)) m2 o2 (by norm_num)
  have k3 := rd (ex (by norm_num : (0 : ℝ) < 4)) m3 o3 (by norm_num)
  have k4 := rd (ex (by norm_num : (0 : ℝ) < 2)) m4 o4 (by norm_num)
  obtain ⟨c, hc⟩ : ∃ c, c = r.fl (r.fl (du' * r.fl 4181) * r.fl 1000) := ⟨_, rfl⟩
  obtain ⟨d, hd⟩ : ∃ d, d = r.fl (r.fl (dl' * r.fl 4181) * r.fl 1000) := ⟨_, rfl⟩
  have Ac : Ap v 5 C C c := by
    have := rd ((rd (Adu.mul hv k1) m5 o5 (by norm_num)).mul hv k2) (by rwa [← hC]) (by rwa [← hC]) (by norm_num)
    rw [← hC, ← hc] at this
    exact this
  have Ad : Ap v 5 D D d := by
    have := rd ((rd (Adl.mul hv k1) m6 o6 (by norm_num)).mul hv k2) (by rwa [← hD]) (by rwa [← hD]) (by norm_num)
    rw [← hD, ← hd] at this
    exact this
  -- b, b*
  obtain ⟨num, hnum⟩ : ∃ x, x = r.fl (l' + r.fl (e * h')) := ⟨_, rfl⟩
  have Anum : Ap v 3 (l + e * h) (l + e * h) num := by
    rw [hnum]
    exact rd ((Al.mono hv (by norm_num) le_rfl).add (rd ((ex he).mul hv Ah) m10 o10 (by norm_num))) m11 o11 (by norm_num)
  obtain ⟨b1, hb1⟩ : ∃ x, x = r.fl (num / c) := ⟨_, rfl⟩
  have Ab1 : Ap v 14 ((l + e * h) / C) ((l + e * h) / C) b1 := by
    rw [hb1]; exact rd (Anum.divA hv Ac hC0 (sm (by norm_num))) m12 o12 (by norm_num)
  obtain ⟨b2, hb2⟩ : ∃ x, x = r.fl (h' / d) := ⟨_, rfl⟩
  have Ab2 : Ap v 14 (h / D) (h / D) b2 := by
    rw [hb2]; exact (rd (Ah.divA hv Ad hD0 (sm (by norm_num))) m13 o13 (by norm_num)).mono hv (by norm_num) le_rfl
  obtain ⟨bb, hbb⟩ : ∃ x, x = r.fl (b1 + b2) := ⟨_, rfl⟩
  have Ab : Ap v 15 b b bb := by
    have := rd (Ab1.add Ab2) (by rwa [← hb']) (by rwa [← hb']) (by norm_num)
    rw [hbb]; rwa [← hb'] at this
  obtain ⟨bs, hbs⟩ : ∃ x, x = r.fl (b1 - b2) := ⟨_, rfl⟩
  have Abs : Ap v 15 (Geo.bStar C D l e h) b bs := by
    have := rd (Ab1.sub Ab2) (by rwa [← hb']) (by rwa [← hb']) (by norm_num)
    rw [hbs]; rwa [← hb'] at this
  -- the discriminant
  obtain ⟨cd, hcd⟩ : ∃ x, x = r.fl (c * d) := ⟨_, rfl⟩
  have Acd : Ap v 11 (C * D) (C * D) cd := by rw [hcd]; exact rd (Ac.mul hv Ad) m9 o9 (by norm_num)
  obtain ⟨n4, hn4⟩ : ∃ x, x = r.fl (r.fl (r.fl 4 * l') * h') := ⟨_, rfl⟩
  have An4 : Ap v 5 (4 * l * h) (4 * l * h) n4 := by
    rw [hn4]; exact rd ((rd (k3.mul hv Al) m17 o17 (by norm_num)).mul hv Ah) m18 o18 (by norm_num)
  obtain ⟨dc, hdc⟩ : ∃ x, x = r.fl (n4 / cd) := ⟨_, rfl⟩
  have Adc : Ap v 31 (4 * l * h / (C * D)) (4 * l * h / (C * D)) dc := by
    rw [hdc]
    exact (rd (An4.divA hv Acd (mul_pos hC0 hD0) (sm (by norm_num))) m19 o19 (by norm_num)).mono hv (by norm_num) le_rfl
  obtain ⟨b2', hb2'⟩ : ∃ x, x = r.fl (bb * bb) := ⟨_, rfl⟩
  have Ab2' : Ap v 31 (b * b) (b * b) b2' := by
    rw [hb2']; exact rd (Ab.mul hv Ab) (by rwa [← sq]) (by rwa [← sq]) (by norm_num)
  obtain ⟨de, hde⟩ : ∃ x, x = r.fl (b2' - dc) := ⟨_, rfl⟩
  have Ade : Ap v 32 δ (2 * b ^ 2) de := by
    have := rd ((Ab2'.sub Adc).mono hv le_rfl (B' := 2 * b ^ 2) (by linarith only [hδ', hδ0, sq b])) m16 o16 (by norm_num)
    rw [hde]; rwa [← hδ'] at this
  have hde0 : 0 < de :=
    Ade.pos_of (c := 2 * (b ^ 2 / δ)) hδ0 hv (p60 (by norm_num)) (le_of_eq (by rw [mul_assoc, div_mul_cancel₀ _ hδ0.ne']))
      (by linarith)
  obtain ⟨ro, hro⟩ : ∃ x, x = r.sqrt de := ⟨_, rfl⟩
  have Aro : Ap v 33 (√δ) (2 * b ^ 2 / √δ) ro := by
    rw [hro]; exact (Ade.root hδ0 hde0.le).roundSqrt hr hv hde0.le m20
  have up : ∀ {X x}, Ap v 15 X b x → Ap v 33 X b x := fun h => h.mono hv (by norm_num) le_rfl
  obtain ⟨bm, hbm⟩ : ∃ x, x = r.fl (bb - ro) := ⟨_, rfl⟩
  have Abm : Ap v 34 (b - √δ) g bm := by
    have := rd ((up Ab).sub Aro) (by rwa [← hg]) (by rwa [← hg]) (by norm_num)
    rw [hbm]; rwa [← hg] at this
  obtain ⟨bp, hbp⟩ : ∃ x, x = r.fl (bb + ro) := ⟨_, rfl⟩
  have Abp : Ap v 34 (b + √δ) g bp := by
    have := rd ((up Ab).add Aro) (by rwa [← hg]) (by rwa [← hg]) (by norm_num)
    rw [hbp]; rwa [← hg] at this
  obtain ⟨sm', hsm⟩ : ∃ x, x = r.fl (bs - ro) := ⟨_, rfl⟩
  have Asm : Ap v 34 (Geo.bStar C D l e h - √δ) g sm' := by
    have := rd ((up Abs).sub Aro) (by rwa [← hg]) (by rwa [← hg]) (by norm_num)
    rw [hsm]; rwa [← hg] at this
  obtain ⟨sp, hsp⟩ : ∃ x, x = r.fl (bs + ro) := ⟨_, rfl⟩
  have Asp : Ap v 34 (Geo.bStar C D l e h + √δ) g sp := by
    have := rd ((up Abs).add Aro) (by rwa [← hg]) (by rwa [← hg]) (by norm_num)
    rw [hsp]; rwa [← hg] at this
  -- time scales
  obtain ⟨n2, hn2⟩ : ∃ x, x = r.fl (r.fl (r.fl 2 * l') * h') := ⟨_, rfl⟩
  have An2 : Ap v 5 (2 * l * h) (2 * l * h) n2 := by
    rw [hn2]; exact rd ((rd (k4.mul hv Al) m22 o22 (by norm_num)).mul hv Ah) m23 o23 (by norm_num)
  obtain ⟨tc, htc⟩ : ∃ x, x = r.fl (cd / n2) := ⟨_, rfl⟩
  have Atc : Ap v 22 (C * D / (2 * l * h)) (C * D / (2 * l * h)) tc := by
    rw [htc]; exact rd (Acd.divA hv An2 (by positivity) (sm (by norm_num))) m24 o24 (by norm_num)
  obtain ⟨t1, ht1⟩ : ∃ x, x = r.fl (tc * bm) := ⟨_, rfl⟩
  have At1 : Ap v 57 (Geo.tau1 C D l e h) (C * D / (2 * l * h) * g) t1 := by
    have := rd (Atc.mul hv Abm) m25 o25 (by norm_num)
    rw [ht1]; rw [hb, hδ] at this; exact this
  obtain ⟨t2, ht2⟩ : ∃ x, x = r.fl (tc * bp) := ⟨_, rfl⟩
  have At2 : Ap v 57 (Geo.tau2 C D l e h) (C * D / (2 * l * h) * g) t2 := by
    have := rd (Atc.mul hv Abp) m25 o25 (by norm_num)
    rw [ht2]; rw [hb, hδ] at this; exact this
  -- mode parameters
  obtain ⟨ne, hne⟩ : ∃ x, x = r.fl (r.fl (r.fl 2 * e) * h') := ⟨_, rfl⟩
  have Ane : Ap v 4 (2 * e * h) (2 * e * h) ne := by
    rw [hne]; exact rd ((rd (k4.mul hv (ex he)) m26 o26 (by norm_num)).mul hv Ah) m27 o27 (by norm_num)
  obtain ⟨pc, hpc⟩ : ∃ x, x = r.fl (c / ne) := ⟨_, rfl⟩
  have Apc : Ap v 14 (C / (2 * e * h)) (C / (2 * e * h)) pc := by
    rw [hpc]; exact rd (Ac.divA hv Ane (by positivity) (sm (by norm_num))) m28 o28 (by norm_num)
  obtain ⟨f1, hf1⟩ : ∃ x, x = r.fl (pc * sm') := ⟨_, rfl⟩
  have Af1 : Ap v 49 (Geo.phi1 C D l e h) (C / (2 * e * h) * g) f1 := by
    have := rd (Apc.mul hv Asm) m29 o29 (by norm_num)
    rw [hf1]; rw [hδ] at this; exact this
  obtain ⟨f2, hf2⟩ : ∃ x, x = r.fl (pc * sp) := ⟨_, rfl⟩
  have Af2 : Ap v 49 (Geo.phi2 C D l e h) (C / (2 * e * h) * g) f2 := by
    have := rd (Apc.mul hv Asp) m29 o29 (by norm_num)
    rw [hf2]; rw [hδ] at this; exact this
  obtain ⟨dp, hdp⟩ : ∃ x, x = r.fl (f2 - f1) := ⟨_, rfl⟩
  have Adp : Ap v 50 (Geo.phi2 C D l e h - Geo.phi1 C D l e h) (2 * (C / (2 * e * h) * g)) dp := by
    rw [hdp]; exact rd ((Af2.sub Af1).mono hv le_rfl (by linarith)) m30 o30 (by norm_num)
  have hdphi : Geo.phi2 C D l e h - Geo.phi1 C D l e h = 2 * (C / (2 * e * h)) * √δ := by
    unfold Geo.phi1 Geo.phi2; rw [hδ]; ring
  have hφ0 : 0 < Geo.phi2 C D l e h - Geo.phi1 C D l e h := Geo.phi_sub_pos hC0 hD0 hl he hh
  have hsize : 2 * (C / (2 * e * h) * g) ≤ 3 * (b ^ 2 / δ) * (Geo.phi2 C D l e h - Geo.phi1 C D l e h) := by
    rw [hdphi]
    have h0 : 0 < C / (2 * e * h) := by positivity
    have h1 := mul_le_mul_of_nonneg_left hgs h0.le
    calc 2 * (C / (2 * e * h) * g) ≤ 2 * (C / (2 * e * h) * (3 * (b ^ 2 / δ) * √δ)) := by linarith only [h1]
      _ = _ := by ring
  have hsmall : 60 * v * (3 * (b ^ 2 / δ)) ≤ 1 / 2 := by linarith
  have hdp0 : 0 < dp := Adp.pos_of hφ0 hv (p60 (by norm_num)) hsize hsmall
  obtain ⟨ad, had⟩ : ∃ x, x = r.fl (c * dp) := ⟨_, rfl⟩
  have had0 : 0 < ad := by
    have Aad : Ap v 56 (C * (Geo.phi2 C D l e h - Geo.phi1 C D l e h)) (C * (2 * (C / (2 * e * h) * g))) ad := by
      rw [had]; exact rd (Ac.mul hv Adp) m31 o31 (by norm_num)
    refine Aad.pos_of (mul_pos hC0 hφ0) hv (p60 (by norm_num)) ?_ hsmall
    exact (mul_le_mul_of_nonneg_left hsize hC0.le).trans (le_of_eq (by ring))
  have nc := (Ac.pos hC0 (sm (by norm_num))).ne'
  have nd := (Ad.pos hD0 (sm (by norm_num))).ne'
  have ncd := (Acd.pos (mul_pos hC0 hD0) (sm (by norm_num))).ne'
  have nn2 := (An2.pos (by positivity) (sm (by norm_num))).ne'
  have nne := (Ane.pos (by positivity) (sm (by norm_num))).ne'
  obtain ⟨zz, hzz⟩ : ∃ zz, zz = z + R.heatCapacityWater.unit + R.densityWater.unit := ⟨_, rfl⟩
  have e1 : ((Qty.mk (FR.fin du') z).mul R.heatCapacityWater).mul R.densityWater = ⟨FR.fin c, zz⟩ := by rw [hc, hzz]; rfl
  have e2 : ((Qty.mk (FR.fin dl') z).mul R.heatCapacityWater).mul R.densityWater = ⟨FR.fin d, zz⟩ := by rw [hd, hzz]; rfl
  have e3 : (Qty.mk (FR.fin l') w).add R ((Qty.mk (FR.fin e) R.one).mul ⟨FR.fin h', w⟩) = .ok ⟨FR.fin num, w⟩ := by
    rw [hnum]; exact FQ.add (zero_add w)
  have e4 : (Qty.mk (FR.fin num : FR r) w).div ⟨FR.fin c, zz⟩ = .ok ⟨FR.fin b1, w - zz⟩ := by rw [hb1]; exact FQ.div hz nc
  have e5 : (Qty.mk (FR.fin h' : FR r) w).div ⟨FR.fin d, zz⟩ = .ok ⟨FR.fin b2, w - zz⟩ := by rw [hb2]; exact FQ.div hz nd
  have e6 : (Qty.mk (FR.fin b1) (w - zz)).add R ⟨FR.fin b2, w - zz⟩ = .ok ⟨FR.fin bb, w - zz⟩ := by rw [hbb]; exact FQ.add rfl
  have e7 : (Qty.mk (FR.fin b1) (w - zz)).sub R ⟨FR.fin b2, w - zz⟩ = .ok ⟨FR.fin bs, w - zz⟩ := by rw [hbs]; exact FQ.sub rfl
  have e8 : (Qty.mk (FR.fin c : FR r) zz).mul ⟨FR.fin d, zz⟩ = ⟨FR.fin cd, zz + zz⟩ := by rw [hcd]; rfl
  have e9 : ((Qty.nmul (Arith.ofNat 4) (Qty.mk (FR.fin l' : FR r) w)).mul ⟨FR.fin h', w⟩).div ⟨FR.fin cd, zz + zz⟩ =
      .ok ⟨FR.fin dc, w + w - (zz + zz)⟩ := by
    rw [hdc, hn4]; exact FQ.div hz ncd
  have e10 : (Qty.mk (FR.fin bb : FR r) (w - zz)).sq = ⟨FR.fin b2', w - zz + (w - zz)⟩ := by rw [hb2']; rfl
  have e11 : (Qty.mk (FR.fin b2') (w - zz + (w - zz))).sub R ⟨FR.fin dc, w + w - (zz + zz)⟩ =
      .ok ⟨FR.fin de, w - zz + (w - zz)⟩ := by
    rw [hde]; exact FQ.sub (by abel)
  have e12 : (Qty.mk (FR.fin cd : FR r) (zz + zz)).div ((Qty.nmul (Arith.ofNat 2) (Qty.mk (FR.fin l' : FR r) w)).mul ⟨FR.fin h', w⟩) =
      .ok ⟨FR.fin tc, zz + zz - (w + w)⟩ := by
    rw [hn2] at nn2; rw [htc, hn2]; exact FQ.div hz nn2
  have uh : (1 / 2 : ℚ) • (w - zz + (w - zz)) = w - zz := by rw [← two_smul ℚ (w - zz), smul_smul]; norm_num
  have e13 : (Qty.mk (FR.fin de : FR r) (w - zz + (w - zz))).sqrt = .ok ⟨FR.fin ro, w - zz⟩ := by
    rw [hro, FQ.sqrt hz hde0.le, uh]
  have e14 : (Qty.mk (FR.fin bb) (w - zz)).sub R ⟨FR.fin ro, w - zz⟩ = .ok ⟨FR.fin bm, w - zz⟩ := by rw [hbm]; exact FQ.sub rfl
  have e15 : (Qty.mk (FR.fin bb) (w - zz)).add R ⟨FR.fin ro, w - zz⟩ = .ok ⟨FR.fin bp, w - zz⟩ := by rw [hbp]; exact FQ.add rfl
  have e16 : (Qty.mk (FR.fin c : FR r) zz).div ((Qty.nmul (Arith.ofNat 2) (Qty.mk (FR.fin e : FR r) R.one)).mul ⟨FR.fin h', w⟩) =
      .ok ⟨FR.fin pc, zz - w⟩ := by
    rw [hne] at nne; rw [hpc, hne]
    refine (FQ.div hz nne).trans ?_
    show Except.ok (Qty.mk _ (zz - (0 + w))) = _
    rw [zero_add]
  have e17 : (Qty.mk (FR.fin bs) (w - zz)).sub R ⟨FR.fin ro, w - zz⟩ = .ok ⟨FR.fin sm', w - zz⟩ := by rw [hsm]; exact FQ.sub rfl
  have e18 : (Qty.mk (FR.fin bs) (w - zz)).add R ⟨FR.fin ro, w - zz⟩ = .ok ⟨FR.fin sp, w - zz⟩ := by rw [hsp]; exact FQ.add rfl
  have ut : zz + zz - (w + w) + (w - zz) = zz - w := by abel
  have up0 : zz - w + (w - zz) = 0 := by abel
  have e19 : (Qty.mk (FR.fin tc : FR r) (zz + zz - (w + w))).mul ⟨FR.fin bm, w - zz⟩ = ⟨FR.fin t1, zz - w⟩ := by
    rw [FQ.mul, ut, ht1]
  have e20 : (Qty.mk (FR.fin tc : FR r) (zz + zz - (w + w))).mul ⟨FR.fin bp, w - zz⟩ = ⟨FR.fin t2, zz - w⟩ := by
    rw [FQ.mul, ut, ht2]
  have e21 : (Qty.mk (FR.fin pc : FR r) (zz - w)).mul ⟨FR.fin sm', w - zz⟩ = ⟨FR.fin f1, 0⟩ := by rw [FQ.mul, up0, hf1]
  have e22 : (Qty.mk (FR.fin pc : FR r) (zz - w)).mul ⟨FR.fin sp, w - zz⟩ = ⟨FR.fin f2, 0⟩ := by rw [FQ.mul, up0, hf2]
  have e23 : (Qty.mk (FR.fin f2) 0).sub R ⟨FR.fin f1, 0⟩ = .ok ⟨FR.fin dp, 0⟩ := by rw [hdp]; exact FQ.sub rfl
  have e24 : (Qty.mk (FR.fin c : FR r) zz).mul ⟨FR.fin dp, 0⟩ = ⟨FR.fin ad, zz + 0⟩ := by rw [had]; rfl
  refine ⟨c, t1, t2, f1, f2, ?_⟩
  rw [← hg, ← hdp, ← had, ← hzz]
  unfold geoffroy
  simp only [e1, e2, e3, e4, e5, e6, e7, e8, e9, e10, e11, e12, e13, e14, e15, e16, e17, e18, e19, e20, e21, e22, e23, e24, ok_bind]
  simp only [FQ.mul, FQ.neg, FQ.div hz had0.ne', ok_bind, pure_eq_ok]
  exact ⟨_, rfl, rfl, rfl, rfl, rfl, rfl, Ac, At1, At2, Af1, Af2, Adp, hdp0, had0⟩

set_option maxHeartbeats 1000000 in
/-- `get_impulse_response_parameters` of parameters known up to a relative error `v` -/
theorem TLM.fgetIR_err (hr : r.Accurate v μ Ω) (hu : 0 ≤ v) {m : TLM N (FR r)} {du dl l e h du' dl' l' h' : ℝ} {z w : Units N}
    (hm1 : m.du = ⟨FR.fin du', z⟩) (hm2 : m.dl = ⟨FR.fin dl', z⟩) (hm3 : m.lambda0 = ⟨FR.fin l', w⟩) (hm4 : m.a.mag = FR.fin 0)
    (hm5 : m.efficacy = ⟨FR.fin e, R.one⟩) (hm6 : m.eta = ⟨FR.fin h', w⟩)
    (Adu : Ap v 1 du du du') (Adl : Ap v 1 dl dl dl') (Al : Ap v 1 l l l') (Ah : Ap v 1 h h h')
    (hdu : 0 < du) (hdl : 0 < dl) (hl : 0 < l) (he : 0 < e) (hh : 0 < h)
    {C D κ : ℝ} (hC : C = du * 4181 * 1000) (hD : D = dl * 4181 * 1000) (hκ : κ = Geo.cond C D l e h)
    (hs : 20000 * v * κ ^ 2 ≤ 1) (hin : ∀ x ∈ Geo.sizes du dl l e h ++ Geo.qSizes C D l e h, μ ≤ x ∧ 2 * x ≤ Ω) :
    ∃ t d1' d2' q1' q2', m.getImpulseResponseParameters R = .ok t ∧
      t.d1 = ⟨FR.fin d1', z + R.heatCapacityWater.unit + R.densityWater.unit - w⟩ ∧
      t.d2 = ⟨FR.fin d2', z + R.heatCapacityWater.unit + R.densityWater.unit - w⟩ ∧
      t.q1 = ⟨FR.fin q1', -w⟩ ∧ t.q2 = ⟨FR.fin q2', -w⟩ ∧ t.efficacy = m.efficacy ∧
      |d1' - Geo.tau1 C D l e h| ≤ 180 * v * κ * Geo.tau2 C D l e h ∧
      |d2' - Geo.tau2 C D l e h| ≤ 180 * v * κ * Geo.tau2 C D l e h ∧
      |q1' - Geo.q1 C D l e h| ≤ 2000 * v * κ ^ 2 * (Geo.tau2 C D l e h / C) ∧
      |q2' - Geo.q2 C D l e h| ≤ 2000 * v * κ ^ 2 * (Geo.tau2 C D l e h / C) := by
  have hz := hr.zero
  have hC0 : 0 < C := by rw [hC]; positivity
  have hD0 : 0 < D := by rw [hD]; positivity
  obtain ⟨k1, k2, k3⟩ := Geo.cond_sq hC0 hD0 hl he hh
  rw [← hκ] at k1 k2 k3
  have hin1 : ∀ x ∈ Geo.sizes du dl l e h, μ ≤ x ∧ 2 * x ≤ Ω := fun x hx => hin x (List.mem_append_left _ hx)
  have hin2 : ∀ x ∈ Geo.qSizes C D l e h, μ ≤ x ∧ 2 * x ≤ Ω := fun x hx => hin x (List.mem_append_right _ hx)
  obtain ⟨c, t1, t2, f1, f2, g, hg, gC, g1, g2, g3, g4, Ac, At1, At2, Af1, Af2, Adp, hdp0, had0⟩ := geo_err (R := R) hr hu hdu hdl hl
    he hh Adu Adl Al Ah hC hD rfl rfl (by rw [← k2]; exact hs) hin1 z w
  have b0 := Geo.b_pos hC0 hD0 hl he hh
  have s0 := Geo.sqrt_pos hC0 hD0 hl he hh
  have dl0 := Geo.delta_pos hC0 hD0 hl he hh
  have sb := Geo.sqrt_lt_b hC0 hD0 hl he hh
  have τ1 := Geo.tau1_pos hC0 hD0 hl he hh
  have τ2 := Geo.tau2_pos hC0 hD0 hl he hh
  have τ12 := Geo.tau1_lt_tau2 hC0 hD0 hl he hh
  have φ1 := Geo.phi1_neg hC0 hD0 hl he hh
  have φ2 := Geo.phi2_pos hC0 hD0 hl he hh
  obtain ⟨b, hb⟩ : ∃ b, b = Geo.b C D l e h := ⟨_, rfl⟩
  obtain ⟨S, hS⟩ : ∃ S, S = √(Geo.delta C D l e h) := ⟨_, rfl⟩
  simp only [← hb, ← hS] at k1 b0 s0 sb At1 At2 Af1 Af2 Adp
  have hbS : b = κ * S := by rw [k1]; field_simp
  have hg1 : b + 2 * b ^ 2 / S ≤ 3 * κ * b := by
    have e1 : 2 * b ^ 2 / S = 2 * κ * b := by rw [k1]; field_simp
    rw [e1]; nlinarith only [b0, k3]
  have hg2 : b + 2 * b ^ 2 / S ≤ 3 * κ ^ 2 * S := hg1.trans (le_of_eq (by rw [hbS]; ring))
  have ht : Geo.tau2 C D l e h + Geo.tau1 C D l e h = 2 * (C * D / (2 * l * h)) * b := by
    unfold Geo.tau1 Geo.tau2; rw [← hb]; ring
  have hd : Geo.phi2 C D l e h - Geo.phi1 C D l e h = 2 * (C / (2 * e * h)) * S := by
    unfold Geo.phi1 Geo.phi2; rw [← hS]; ring
  obtain ⟨T1, hT1⟩ : ∃ x, x = Geo.tau1 C D l e h := ⟨_, rfl⟩
  obtain ⟨T2, hT2⟩ : ∃ x, x = Geo.tau2 C D l e h := ⟨_, rfl⟩
  obtain ⟨P1, hP1⟩ : ∃ x, x = Geo.phi1 C D l e h := ⟨_, rfl⟩
  obtain ⟨P2, hP2⟩ : ∃ x, x = Geo.phi2 C D l e h := ⟨_, rfl⟩
  have hq1 : Geo.q1 C D l e h = T1 * P2 / (C * (P2 - P1)) := by rw [hT1, hP1, hP2]; rfl
  have hq2 : Geo.q2 C D l e h = -T2 * P1 / (C * (P2 - P1)) := by rw [hT2, hP1, hP2]; rfl
  rw [hq1, hq2]
  unfold Geo.qSizes at hin2
  simp only [List.forall_mem_cons, List.not_mem_nil, IsEmpty.forall_iff, forall_const, and_true] at hin2
  simp only [← hT1, ← hT2, ← hP1, ← hP2] at hin2 ht hd τ1 τ2 τ12 φ1 φ2 At1 At2 Af1 Af2 Adp ⊢
  obtain ⟨⟨m1, o1⟩, ⟨m2, o2⟩, ⟨m3, o3⟩⟩ := hin2
  have hu1 : 20000 * v ≤ 1 := by
    have : 0 ≤ v * (κ ^ 2 - 1) := mul_nonneg hu (by nlinarith only [k3])
    linarith only [hs, this]
  have p60 : ∀ {k : ℕ}, k ≤ 57 → (1 + v) ^ k - 1 ≤ 60 * v := by
    intro k hk
    have h1 : (1 + v) ^ k ≤ (1 + v) ^ 57 := pow_le_pow_right₀ (by linarith) hk
    have h2 := pow_small hu 57 (by norm_num; linarith)
    norm_num at h2
    nlinarith only [h1, h2, hu, hu1]
  have hG : C * D / (2 * l * h) * (b + 2 * b ^ 2 / S) ≤ 3 * κ * T2 := by
    have : 0 < C * D / (2 * l * h) := by positivity
    have h1 := mul_le_mul_of_nonneg_left hg1 this.le
    have h2 : C * D / (2 * l * h) * (3 * κ * b) = 3 / 2 * κ * (T2 + T1) := by rw [ht]; ring
    have h3 : κ * T1 ≤ κ * T2 := mul_le_mul_of_nonneg_left τ12.le (by linarith)
    rw [h2] at h1
    exact h1.trans (by nlinarith only [h3])
  have hF : C / (2 * e * h) * (b + 2 * b ^ 2 / S) ≤ 3 / 2 * κ ^ 2 * (P2 - P1) := by
    have : 0 < C / (2 * e * h) := by positivity
    have h1 := mul_le_mul_of_nonneg_left hg2 this.le
    refine h1.trans (le_of_eq ?_)
    rw [hd]; ring
  have dφ : 0 < P2 - P1 := by linarith
  have hκ2 : κ ≤ κ ^ 2 := by nlinarith only [k3]
  -- the unit of error of the second half
  obtain ⟨ε, hε⟩ : ∃ ε, ε = 180 * v * κ ^ 2 := ⟨_, rfl⟩
  have hε0 : 0 ≤ ε := by rw [hε]; positivity
  have huε : v ≤ ε := by rw [hε]; nlinarith only [hu, k3, hκ2]
  have hε1 : ε ≤ 9 / 1000 := by rw [hε]; linarith
  have hr' := hr.weaken huε
  have re : ∀ {k : ℕ} {X B x Y a : ℝ}, Ap v k X B x → k ≤ 57 → |X| ≤ Y → B ≤ 3 * a * Y → 0 ≤ a → a ≤ κ ^ 2 → Ap ε 1 X Y x := by
    intro k X B x Y a h hk hX hB ha ha'
    have hY : 0 ≤ Y := (abs_nonneg _).trans hX
    refine h.rebase hX ?_
    calc ((1 + v) ^ k - 1) * B ≤ 60 * v * (3 * a * Y) := mul_le_mul (p60 hk) hB h.B_nonneg (by positivity)
      _ = 180 * v * a * Y := by ring
      _ ≤ ε * Y := by rw [hε]; gcongr
  have Bc : Ap ε 1 C C c := re (a := 1) Ac (by norm_num) (abs_of_pos hC0).le (by linarith) (by norm_num) (by nlinarith only [k3])
  have B1 : Ap ε 1 T1 T2 t1 := re At1 (by norm_num) (by rw [abs_of_pos τ1]; exact τ12.le) hG (by linarith) hκ2
  have B2 : Ap ε 1 T2 T2 t2 := re At2 (by norm_num) (abs_of_pos τ2).le hG (by linarith) hκ2
  have hκκ : 0 ≤ κ ^ 2 * (P2 - P1) := by positivity
  have Bf1 : Ap ε 1 P1 (P2 - P1) f1 :=
    re Af1 (by norm_num) (by rw [abs_of_neg φ1]; linarith) (hF.trans (by linarith only [hκκ])) (by positivity) le_rfl
  have Bf2 : Ap ε 1 P2 (P2 - P1) f2 :=
    re Af2 (by norm_num) (by rw [abs_of_pos φ2]; linarith) (hF.trans (by linarith only [hκκ])) (by positivity) le_rfl
  have Bdp : Ap ε 1 (P2 - P1) (P2 - P1) (r.fl (f2 - f1)) :=
    re Adp (by norm_num) (abs_of_pos dφ).le (by linarith only [hF]) (by positivity) le_rfl
  have p10 : ∀ {k : ℕ}, k ≤ 10 → (1 + ε) ^ k - 1 ≤ 11 * ε := by
    intro k hk
    have h1 : (1 + ε) ^ k ≤ (1 + ε) ^ 10 := pow_le_pow_right₀ (by linarith) hk
    have h2 := pow_small hε0 10 (by norm_num; linarith)
    norm_num at h2
    nlinarith only [h1, h2, hε0, hε1]
  have sm : ∀ {k : ℕ}, k ≤ 10 → (1 + ε) ^ k ≤ 3 / 2 := fun hk => by linarith [p10 hk]
  have rd : ∀ {k : ℕ} {X B x : ℝ}, Ap ε k X B x → μ ≤ B → 2 * B ≤ Ω → k ≤ 9 → Ap ε (k + 1) X B (r.fl x) := by
    intro k X B x h h1 h2 hk
    refine h.round hr' hε0 h1 (le_trans ?_ h2)
    have := sm (k := k) (by omega)
    exact mul_le_mul_of_nonneg_right (by linarith) h.B_nonneg
  have Aad := rd (Bc.mul hε0 Bdp) m2 o2 (by norm_num)
  have hCd : 0 < C * (P2 - P1) := mul_pos hC0 dφ
  have eB : T2 * (P2 - P1) / (C * (P2 - P1)) = T2 / C := by field_simp
  have fin : ∀ {X x : ℝ}, Ap ε 2 X (T2 * (P2 - P1)) x →
      |r.fl (r.fl x / r.fl (c * r.fl (f2 - f1))) - X / (C * (P2 - P1))| ≤ 2000 * v * κ ^ 2 * (T2 / C) := by
    intro X x hX
    have h1 := rd ((rd hX m1 o1 (by norm_num)).divA hε0 Aad hCd (sm (by norm_num))) (by rwa [eB]) (by rwa [eB]) (by norm_num)
    rw [eB] at h1
    refine h1.2.trans ((mul_le_mul_of_nonneg_right (p10 (by norm_num)) (by positivity)).trans ?_)
    rw [hε]
    have : 0 ≤ v * κ ^ 2 * (T2 / C) := by positivity
    linarith
  obtain ⟨Z, hZ⟩ : ∃ Z, Z = z + R.heatCapacityWater.unit + R.densityWater.unit := ⟨_, rfl⟩
  rw [← hZ] at gC g1 g2 ⊢
  refine ⟨⟨⟨FR.fin t1, Z - w⟩, ⟨FR.fin t2, Z - w⟩, ⟨FR.fin _, -w⟩, ⟨FR.fin _, -w⟩, m.efficacy⟩, t1, t2, _, _, ?_,
    rfl, rfl, rfl, rfl, rfl, ?_, ?_, fin (B1.mul hε0 Bf2), fin (B2.neg.mul hε0 Bf1)⟩
  · unfold TLM.getImpulseResponseParameters
    have ha : Arith.eq m.a.mag (Arith.ofNat 0) = true := by
      rw [hm4, FR.ofNat_eq, Nat.cast_zero, hz]
      show Arith.eq (FR.fin 0 : FR r) (FR.fin 0) = true
      rw [FR.eq_fin]; simp
    rw [ha, hm1, hm2, hm3, hm5, hm6]
    simp only [Bool.not_true, Bool.false_eq_true, if_false]
    rw [hg, ok_bind, gC, g1, g2, g3, g4, FQ.sub rfl, ok_bind]
    simp only [FQ.mul, FQ.neg, FQ.div hz had0.ne', ok_bind, pure_eq_ok]
    have uq : Z - w + 0 - (Z + 0) = -w := by abel
    rw [uq]
  · refine At1.2.trans ((mul_le_mul (p60 le_rfl) hG At1.B_nonneg (by positivity)).trans (le_of_eq (by ring)))
  · refine At2.2.trans ((mul_le_mul (p60 le_rfl) hG At2.B_nonneg (by positivity)).trans (le_of_eq (by ring)))
end
end TwoLayer
