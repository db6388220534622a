import Verif.Proofs.RoundTrip
import Verif.Spec.RoundTrip
import Verif.Props.RoundingGeo

/-!
# C112: converting back and forth in floating-point arithmetic

`Geo.toIR`, `Geo.spread`, `IRPar.cond` and `IRPar.loss` are in `Spec/RoundTrip.lean`, the other notions in
`Spec/Rounding.lean`, `Spec/Geoffroy.lean` and `Spec/Convert.lean`.
-/

set_option linter.unusedSimpArgs false
set_option linter.unusedSectionVars false

namespace TwoLayer
section
variable {N : Type} [Fintype N] [DecidableEq N] {r : Rounding} {R : Registry N (FR r)}

theorem Registry.Dimensional.tau_ok (L : R.Dimensional) :
    UnitOk R (R.m + R.heatCapacityWater.unit + R.densityWater.unit - R.wm2c) R.yr := by
  rw [L.unitOk_iff]
  simp only [Registry.densityWater, Registry.heatCapacityWater, Registry.wm2c, Registry.wm2, Registry.yr,
    Registry.m, dimOf_add, dimOf_sub, dimOf_smul, dimOf_u1, dimOf_neg, L.dim_joule, L.dim_year]
  funext d
  simp
  ring

theorem Registry.Dimensional.depth_ok (L : R.Dimensional) :
    UnitOk R (R.yr - R.cwm2 - (R.densityWater.unit + R.heatCapacityWater.unit)) R.m := by
  rw [L.unitOk_iff]
  simp only [Registry.densityWater, Registry.heatCapacityWater, Registry.cwm2, Registry.wm2, Registry.yr,
    Registry.m, dimOf_add, dimOf_sub, dimOf_smul, dimOf_u1, dimOf_neg, L.dim_joule, L.dim_year]
  funext d
  simp
  ring

theorem Registry.neg_wm2c (R : Registry N (FR r)) : -R.wm2c = R.cwm2 := neg_sub _ _
theorem Registry.neg_cwm2 (R : Registry N (FR r)) : -R.cwm2 = R.wm2c := neg_sub _ _

set_option maxHeartbeats 1000000 in
/-- **C112** (impulse response → two-layer → impulse response).  Parameters in the units of the model, every operation rounded with
relative error at most `u`.  Both conversions and the construction in between succeed, the parameters come back in the units they
had, the efficacy unchanged, both timescales within `6300 u s κ d2`, both coefficients within `70000 u s κ² d2 / C`, where
`κ = (d2 + d1) / (d2 - d1)` and `s = 1 + 2 C / (e D)`. -/
theorem C112_impulse_response (L : R.Dimensional) {u μ Ω : ℝ} (hr : r.Accurate u μ Ω) (hu : 0 ≤ u) {m : IRM N (FR r)} {p : IRPar}
    (hp : m.Plain R p) (ho : p.Ok) (hin : p.ConvNormal μ Ω)
    (hin' : ∀ x ∈ Geo.sizes (p.C / (1000 * 4181)) (p.D / (1000 * 4181)) p.l p.e p.h ++ Geo.qSizes p.C p.D p.l p.e p.h,
      μ ≤ x ∧ 2 * x ≤ Ω)
    {κ s : ℝ} (hκ : κ = p.cond) (hs : s = p.loss) (hsm : 700000 * u * s * κ ^ 2 ≤ 1) {dt : Qty N (FR r)} (hdt : UnitOk R dt.unit R.s) :
    ∃ t m2 t2 d1' d2' q1' q2', m.getTwoLayerParameters R = .ok t ∧
      TLM.init R (t.args (TLM.defaultArgs R).a (.qty dt)) = .ok m2 ∧ m2.getImpulseResponseParameters R = .ok t2 ∧
      t2.d1 = ⟨FR.fin d1', R.yr⟩ ∧ t2.d2 = ⟨FR.fin d2', R.yr⟩ ∧ t2.q1 = ⟨FR.fin q1', R.cwm2⟩ ∧ t2.q2 = ⟨FR.fin q2', R.cwm2⟩ ∧
      t2.efficacy = m.efficacy ∧
      |d1' - p.d1| ≤ 6300 * u * s * κ * p.d2 ∧ |d2' - p.d2| ≤ 6300 * u * s * κ * p.d2 ∧
      |q1' - p.q1| ≤ 70000 * u * s * κ ^ 2 * (p.d2 / p.C) ∧ |q2' - p.q2| ≤ 70000 * u * s * κ ^ 2 * (p.d2 / p.C) := by
  have hC : 0 < p.C := Geo.invC_pos ho.q1 ho.q2 ho.d1 ho.d2
  have hD : 0 < p.D := Geo.invD_pos ho.q1 ho.q2 ho.d1 ho.d2 ho.e
  have hh : 0 < p.h := Geo.invH_pos ho.q1 ho.q2 ho.d1 ho.d2 ho.e
  have hl : 0 < p.l := Geo.invL_pos ho.q1 ho.q2
  have he := ho.e
  have s1 : 1 ≤ s := by
    have : 0 < 2 * p.C / (p.e * p.D) := by positivity
    rw [hs]; unfold IRPar.loss; linarith
  have κ1 : 1 ≤ κ := by
    rw [hκ]; unfold IRPar.cond
    rw [le_div_iff₀ (by linarith [ho.d2])]; linarith [ho.d1]
  have κ2 : 1 ≤ κ ^ 2 := one_le_pow₀ κ1
  have us : u ≤ u * s := le_mul_of_one_le_right hu s1
  have us2 : u * s ≤ u * s * κ ^ 2 := le_mul_of_one_le_right (by positivity) κ2
  obtain ⟨t, l', du', dl', h', ht, a1, a2, a3, a4, b1, b2, b3, b4, b5, c1, c2, c3, c4⟩ :=
    C102_two_layer_parameters hr hu (by linarith) hp ho.boxes hin
  obtain ⟨v, hv⟩ : ∃ v, v = 35 * u * s := ⟨_, rfl⟩
  have hv0 : 0 ≤ v := by rw [hv]; positivity
  have huv : u ≤ v := by rw [hv]; linarith
  have hDl : 0 < p.D / (1000 * 4181) := by positivity
  have hCl : 0 < p.C / (1000 * 4181) := by positivity
  have mk : ∀ {X x k : ℝ}, 0 < X → |x - X| ≤ k * X → k ≤ v → Ap v 1 X X x := by
    intro X x k h0 h1 h2
    refine ⟨(abs_of_pos h0).le, h1.trans ?_⟩
    rw [pow_one, add_sub_cancel_left]
    exact mul_le_mul_of_nonneg_right h2 h0.le
  have es : 1 + 2 * p.C / (p.e * p.D) = s := hs.symm
  rw [es] at c3 c4
  have Al := mk hl c1 (by rw [hv]; linarith)
  have Adu := mk hCl c2 (by rw [hv]; linarith)
  have Adl := mk hDl c3 (by rw [hv]; linarith)
  have Ah := mk hh c4 (by rw [hv])
  have eq : ∀ {q : Qty N (FR r)} {x : FR r} {w : Units N}, q.mag = x → q.unit = w → q = ⟨x, w⟩ := by
    intro q x w h1 h2; cases q; simp_all
  have q1 := eq a2 b2
  have q2 := eq a3 (b3.trans b2)
  have q3 := eq a1 b1
  have q4 := eq a4 b4
  have hdok := L.depth_ok
  have hlok : UnitOk R (-R.cwm2) R.wm2c := Or.inl R.neg_cwm2
  have hok := TLM.init_good L (du := t.du) (dl := t.dl) (l := t.lambda0) (a := ⟨Arith.dec 0 1, R.wm2cc⟩) (ef := t.efficacy)
    (et := t.eta) (dt := dt) (by rw [q1]; exact hdok) (by rw [q2]; exact hdok) (by rw [q3]; exact hlok) (Or.inl rfl)
    (by rw [b5, hp.efficacy]; exact Or.inl rfl) (by rw [q4]; exact hlok) hdt
  obtain ⟨f1, f2, f3, f4⟩ := Geo.round_trip_ir ho.q1 ho.q2 ho.d1 ho.d2 ho.e
  change Geo.tau1 p.C p.D p.l p.e p.h = p.d1 at f1
  change Geo.tau2 p.C p.D p.l p.e p.h = p.d2 at f2
  change Geo.q1 p.C p.D p.l p.e p.h = p.q1 at f3
  change Geo.q2 p.C p.D p.l p.e p.h = p.q2 at f4
  have hκ' : κ = Geo.cond p.C p.D p.l p.e p.h := by rw [hκ]; unfold IRPar.cond Geo.cond; rw [f1, f2]
  obtain ⟨t2, d1', d2', q1', q2', g0, g1, g2, g3, g4, g5, g6, g7, g8, g9⟩ :=
    TLM.fgetIR_err (R := R) (m := TLM.built R t.du t.dl t.lambda0 ⟨Arith.dec 0 1, R.wm2cc⟩ t.efficacy t.eta dt) (hr.weaken huv) hv0
      q1 q2 q3 (by show (Arith.dec 0 1 : FR r) = _; rw [FR.dec_eq]; simp [hr.zero]) (b5.trans hp.efficacy) q4
      Adu Adl Al Ah hCl hDl hl he hh (C := p.C) (D := p.D) (by field_simp) (by field_simp) hκ' (by rw [hv]; linarith) hin'
  have eu : R.yr - R.cwm2 - (R.densityWater.unit + R.heatCapacityWater.unit) + R.heatCapacityWater.unit + R.densityWater.unit -
      -R.cwm2 = R.yr := by abel
  rw [eu] at g1 g2
  rw [neg_neg] at g3 g4
  rw [f1, f2] at g6
  rw [f2] at g7 g8 g9
  rw [f3] at g8
  rw [f4] at g9
  have n1 : 0 ≤ u * s * κ * p.d2 := by have := ho.d1.trans ho.d2; positivity
  have n2 : 0 ≤ u * s * κ ^ 2 * (p.d2 / p.C) := by have := ho.d1.trans ho.d2; positivity
  rw [hv] at g6 g7 g8 g9
  exact ⟨t, _, t2, d1', d2', q1', q2', ht, hok, g0, g1, g2, g3, g4, g5.trans b5, by linarith, by linarith, by linarith, by linarith⟩

set_option maxHeartbeats 1000000 in
/-- **C112** (two-layer → impulse response → two-layer).  Parameters in the units of the model, every operation rounded with relative
error at most `u`.  Both conversions and the construction in between succeed, the parameters come back in the units they had, the
efficacy unchanged, and the others with relative errors of at most a multiple of `u κ² ρ` (of `u κ² ρ s` for the lower depth and the
heat exchange coefficient), where `κ = (d2 + d1) / (d2 - d1)`, `s = 1 + 2 C / (e D)` and `ρ` is the spread of the modes. -/
theorem C112_two_layer (L : R.Dimensional) {u μ Ω : ℝ} (hr : r.Accurate u μ Ω) (hu : 0 ≤ u) {m : TLM N (FR r)}
    {du dl l e h : ℝ} (hp : m.Plain R du dl l e h) (hdu : 0 < du) (hdl : 0 < dl) (hl : 0 < l) (he : 0 < e) (hh : 0 < h)
    {C D κ ρ s : ℝ} (hC : C = du * 4181 * 1000) (hD : D = dl * 4181 * 1000) (hκ : κ = Geo.cond C D l e h)
    (hρ : ρ = Geo.spread C D l e h) (hs : s = 1 + 2 * C / (e * D)) (hsm : 400000 * u * κ ^ 2 * ρ ≤ 1)
    (hin : ∀ x ∈ Geo.sizes du dl l e h ++ Geo.qSizes C D l e h, μ ≤ x ∧ 2 * x ≤ Ω) (hin' : (Geo.toIR C D l e h).ConvNormal μ Ω)
    {dt : Qty N (FR r)} (hdt : UnitOk R dt.unit R.yr) :
    ∃ t m2 t2 du' dl' l' h', m.getImpulseResponseParameters R = .ok t ∧ IRM.init R (t.args (.qty dt)) = .ok m2 ∧
      m2.getTwoLayerParameters R = .ok t2 ∧
      t2.du = ⟨FR.fin du', R.m⟩ ∧ t2.dl = ⟨FR.fin dl', R.m⟩ ∧ t2.lambda0 = ⟨FR.fin l', R.wm2c⟩ ∧ t2.eta = ⟨FR.fin h', R.wm2c⟩ ∧
      t2.efficacy = m.efficacy ∧
      |du' - du| ≤ 42000 * u * κ ^ 2 * ρ * du ∧ |dl' - dl| ≤ 62000 * u * κ ^ 2 * ρ * s * dl ∧
      |l' - l| ≤ 14000 * u * κ ^ 2 * ρ * l ∧ |h' - h| ≤ 106000 * u * κ ^ 2 * ρ * s * h := by
  have hC0 : 0 < C := by rw [hC]; positivity
  have hD0 : 0 < D := by rw [hD]; positivity
  have k1 := (Geo.cond_sq hC0 hD0 hl he hh).2.2
  rw [← hκ] at k1
  have k2 : 1 ≤ κ ^ 2 := one_le_pow₀ k1
  have kk : κ ≤ κ ^ 2 := by nlinarith only [k1]
  have τ1 := Geo.tau1_pos hC0 hD0 hl he hh
  have τ12 := Geo.tau1_lt_tau2 hC0 hD0 hl he hh
  have τ2 := τ1.trans τ12
  have p1 := Geo.q1_pos hC0 hD0 hl he hh
  have p2 := Geo.q2_pos hC0 hD0 hl he hh
  have φ1 := Geo.phi1_neg hC0 hD0 hl he hh
  have φ2 := Geo.phi2_pos hC0 hD0 hl he hh
  obtain ⟨i1, i2, i3, i4⟩ := Geo.round_trip_tl hC0 hD0 hl he hh
  obtain ⟨P, hP⟩ : ∃ P, P = Geo.toIR C D l e h := ⟨_, rfl⟩
  have eτ1 : Geo.tau1 C D l e h = P.d1 := by rw [hP]; rfl
  have eτ2 : Geo.tau2 C D l e h = P.d2 := by rw [hP]; rfl
  have eq1 : Geo.q1 C D l e h = P.q1 := by rw [hP]; rfl
  have eq2 : Geo.q2 C D l e h = P.q2 := by rw [hP]; rfl
  have ee : e = P.e := by rw [hP]; rfl
  have cq1 : C * P.q1 ≤ P.d1 := by
    have : C * Geo.q1 C D l e h = Geo.tau1 C D l e h * (Geo.phi2 C D l e h / (Geo.phi2 C D l e h - Geo.phi1 C D l e h)) := by
      unfold Geo.q1
      have : Geo.phi2 C D l e h - Geo.phi1 C D l e h ≠ 0 := by linarith
      field_simp
    rw [← eq1, ← eτ1, this]
    refine mul_le_of_le_one_right τ1.le ?_
    rw [div_le_one (by linarith)]; linarith
  have ρ1 : P.d2 / C / P.q1 ≤ ρ := by rw [hρ, ← eτ2, ← eq1]; exact le_max_left _ _
  have ρ2 : P.d2 / C / P.q2 ≤ ρ := by rw [hρ, ← eτ2, ← eq2]; exact le_max_right _ _
  rw [eτ1] at τ1 τ12
  rw [eτ2] at τ2 τ12
  rw [eq1] at p1
  rw [eq2] at p2
  have r1 : P.d2 / C ≤ ρ * P.q1 := by rwa [div_le_iff₀ p1] at ρ1
  have r2 : P.d2 / C ≤ ρ * P.q2 := by rwa [div_le_iff₀ p2] at ρ2
  have ρ0 : 0 ≤ ρ := le_trans (by positivity) ρ1
  have r3 : P.d2 ≤ ρ * P.d1 := by
    rw [div_le_iff₀ hC0] at r1
    exact r1.trans (by rw [mul_assoc, mul_comm P.q1]; exact mul_le_mul_of_nonneg_left cq1 ρ0)
  have ρ3 : 1 ≤ ρ := by
    by_contra hc
    have : ρ * P.d1 ≤ 1 * P.d1 := mul_le_mul_of_nonneg_right (not_le.mp hc).le τ1.le
    linarith
  have hsm' : u * κ ^ 2 ≤ u * κ ^ 2 * ρ := le_mul_of_one_le_right (by positivity) ρ3
  have ex : ∀ {x : ℝ}, 0 < x → Ap u 1 x x x := fun h => (Ap.exact (abs_of_pos h).le).mono hu (by norm_num) le_rfl
  obtain ⟨t, d1', d2', q1', q2', ht, a1, a2, a3, a4, a5, b1, b2, b3, b4⟩ := C103_impulse_response_parameters (R := R) hr hu hp hdu hdl hl he hh hC hD hκ
    (by linarith) hin
  rw [eτ1, eτ2] at b1
  rw [eτ2] at b2 b3 b4
  rw [eq1] at b3
  rw [eq2] at b4
  obtain ⟨v, hv⟩ : ∃ v, v = 2000 * u * κ ^ 2 * ρ := ⟨_, rfl⟩
  have hv0 : 0 ≤ v := by rw [hv]; positivity
  have huk : u ≤ u * κ ^ 2 := le_mul_of_one_le_right hu k2
  have huv : u ≤ v := by rw [hv]; linarith
  have huk' : u * κ ≤ u * κ ^ 2 := mul_le_mul_of_nonneg_left kk hu
  have mk : ∀ {X x : ℝ}, 0 < X → |x - X| ≤ v * X → Ap v 1 X X x := by
    intro X x h0 h1
    exact ⟨(abs_of_pos h0).le, by rwa [pow_one, add_sub_cancel_left]⟩
  have n1 : u * κ * P.d2 ≤ u * κ ^ 2 * (ρ * P.d1) := mul_le_mul huk' r3 τ2.le (by positivity)
  have A1 : Ap v 1 P.d1 P.d1 d1' := mk τ1 (b1.trans (by
    rw [hv]
    have : 0 ≤ u * κ ^ 2 * (ρ * P.d1) := by positivity
    linarith))
  have A2 : Ap v 1 P.d2 P.d2 d2' := mk τ2 (b2.trans (by
    rw [hv]
    have h1 : u * κ * P.d2 ≤ u * κ ^ 2 * ρ * P.d2 := mul_le_mul_of_nonneg_right (huk'.trans hsm') τ2.le
    have : 0 ≤ u * κ ^ 2 * ρ * P.d2 := by positivity
    linarith))
  have A3 : Ap v 1 P.q1 P.q1 q1' := mk p1 (b3.trans (by
    rw [hv]
    have := mul_le_mul_of_nonneg_left r1 (by positivity : 0 ≤ 2000 * u * κ ^ 2)
    linarith))
  have A4 : Ap v 1 P.q2 P.q2 q2' := mk p2 (b4.trans (by
    rw [hv]
    have := mul_le_mul_of_nonneg_left r2 (by positivity : 0 ≤ 2000 * u * κ ^ 2)
    linarith))
  -- the short timescale is still the short one
  have hlt : d1' < d2' := by
    have h1 := (abs_le.mp b1).2
    have h2 := (abs_le.mp b2).1
    have hd : 0 < P.d2 - P.d1 := by linarith
    have h3 : κ * (P.d2 - P.d1) = P.d2 + P.d1 := by
      rw [hκ]; unfold Geo.cond; rw [eτ1, eτ2, div_mul_cancel₀ _ hd.ne']
    have h4 : 360 * (u * κ) * P.d2 < P.d2 - P.d1 := by
      have h5 : 360 * (u * κ) * P.d2 ≤ 360 * (u * κ) * (κ * (P.d2 - P.d1)) := by
        rw [h3]; exact mul_le_mul_of_nonneg_left (by linarith) (by positivity)
      have h6 : 360 * (u * κ) * (κ * (P.d2 - P.d1)) = 360 * (u * κ ^ 2) * (P.d2 - P.d1) := by ring
      have h7 : 360 * (u * κ ^ 2) < 1 := by linarith
      have h8 := mul_lt_mul_of_pos_right h7 hd
      linarith
    linarith
  have hge : t.d1.ge R t.d2 = .ok false := by
    rw [a1, a2]
    unfold Qty.ge
    rw [if_pos rfl]
    show Except.ok (Arith.le (FR.fin d2' : FR r) (FR.fin d1')) = _
    have : Arith.le (FR.fin d2' : FR r) (FR.fin d1') = false := by
      show decide (d2' ≤ d1') = false
      exact decide_eq_false (not_le.mpr hlt)
    rw [this]
  have htok := L.tau_ok
  have hqok : UnitOk R (-R.wm2c) R.cwm2 := Or.inl R.neg_wm2c
  have hok := IRM.init_good (R := R) (q1 := t.q1) (q2 := t.q2) (d1 := t.d1) (d2 := t.d2) (ef := t.efficacy) (dt := dt)
    (by rw [a3]; exact hqok) (by rw [a4]; exact hqok) (by rw [a1]; exact htok) (by rw [a2]; exact htok)
    (by rw [a5, hp.efficacy]; exact Or.inl rfl) hdt
  rw [hge] at hok
  have j1 : P.l = l := by rw [hP]; exact i1
  have j2 : P.C = C := by rw [hP]; exact i2
  have j3 : P.D = D := by rw [hP]; exact i3
  have j4 : P.h = h := by rw [hP]; exact i4
  obtain ⟨X, hX⟩ : ∃ X, X = P.l * (P.d1 * (P.l * P.q1) + P.d2 * (P.l * P.q2)) := ⟨_, rfl⟩
  have he' : 0 < P.e := by rw [← ee]; exact he
  have hDX : P.D = (X - P.C) / P.e := by rw [hX]; rfl
  have hXe : X = P.C + P.e * P.D := by rw [hDX]; field_simp; ring
  have hD' : 0 < P.D := by rw [j3]; exact hD0
  have hs1 : (X + P.C) / P.e = 2 * P.C / P.e + P.D := by rw [hXe]; field_simp; ring
  have hs2 : 2 * P.C / P.e + P.D = (1 + 2 * P.C / (P.e * P.D)) * P.D := by field_simp; ring
  obtain ⟨den, hden⟩ : ∃ den, den = P.d1 * (P.l * P.q2) + P.d2 * (P.l * P.q1) := ⟨_, rfl⟩
  have hhd : P.h = P.D / den := by rw [hden]; rfl
  have hs3 : (X + P.C) / P.e / den = P.h * (1 + 2 * P.C / (P.e * P.D)) := by rw [hs1, hs2, hhd]; ring
  rw [← hP] at hin'
  have hv1 : v ≤ 1 / 200 := by rw [hv]; linarith
  obtain ⟨l', du', dl', h', hok2, e1, e2, e3, e4⟩ := IRM.fconv_err' (R := R) (m := IRM.built R t.q1 t.q2 t.d1 t.d2 t.efficacy dt)
    (hr.weaken huv) hv0 hv1 ⟨a3, a4, a1, a2, a5.trans (by rw [hp.efficacy, ee])⟩ A3 A4 A1 A2 p1 p2 τ1 τ2 he' (l := P.l) (C := P.C) rfl rfl
    hX hden (by
      rw [hs3, hs1, show X + P.C = 2 * P.C + P.e * P.D by rw [hXe]; ring, hXe, hden]
      exact hin')
  have es : 1 + 2 * P.C / (P.e * P.D) = s := by rw [hs, j2, j3, ← ee]
  obtain ⟨y1, y2, y3, y4⟩ := gammas' hv0 hv1
  have eC : C / (1000 * 4181) = du := by rw [hC]; field_simp
  have eD : D / (1000 * 4181) = dl := by rw [hD]; field_simp
  have uu1 : -(-R.wm2c) + (R.m + R.heatCapacityWater.unit + R.densityWater.unit - R.wm2c) -
      (R.densityWater.unit + R.heatCapacityWater.unit) = R.m := by abel
  have uu2 : -(-R.wm2c) + (R.m + R.heatCapacityWater.unit + R.densityWater.unit - R.wm2c) - R.one -
      (R.densityWater.unit + R.heatCapacityWater.unit) = R.m := by unfold Registry.one; abel
  have uu3 : -(-R.wm2c) + (R.m + R.heatCapacityWater.unit + R.densityWater.unit - R.wm2c) - R.one -
      (R.m + R.heatCapacityWater.unit + R.densityWater.unit - R.wm2c) = R.wm2c := by unfold Registry.one; abel
  rw [uu1, uu2, uu3, neg_neg] at hok2
  refine ⟨t, _, _, du', dl', l', h', ht, hok, hok2, rfl, rfl, rfl, rfl, by rw [hp.efficacy, ee], ?_, ?_, ?_, ?_⟩
  · rw [j2, eC] at e2
    refine e2.2.trans ((mul_le_mul_of_nonneg_right y2 hdu.le).trans (le_of_eq ?_))
    rw [hv]; ring
  · rw [hs1, hs2, es, ← hDX, j3, mul_div_assoc, eD] at e3
    refine e3.2.trans ((mul_le_mul_of_nonneg_right y3 e3.B_nonneg).trans (le_of_eq ?_))
    rw [hv]; ring
  · rw [j1] at e1
    refine e1.2.trans ((mul_le_mul_of_nonneg_right y1 hl.le).trans (le_of_eq ?_))
    rw [hv]; ring
  · rw [hs3, es, ← hDX, ← hhd, j4] at e4
    refine e4.2.trans ((mul_le_mul_of_nonneg_right y4 e4.B_nonneg).trans (le_of_eq ?_))
    rw [hv]; ring
end

/-! ## The default models in double precision -/

set_option maxHeartbeats 2000000 in
theorem defaultD_modes {l h : ℝ} (hl : Btw l 1.24 1.25) (hh : Btw h 0.79 0.81) :
    (Geo.toIR 209050000 5017200000 l 1 h).ConvNormal (2⁻¹ ^ 1022) (10 ^ 61) ∧ Geo.spread 209050000 5017200000 l 1 h ≤ 200 := by
  have hl0 := hl.pos
  have hh0 := hh.pos
  have C0 : (0 : ℝ) < 209050000 := by norm_num
  have D0 : (0 : ℝ) < 5017200000 := by norm_num
  have φm := Geo.phi1_mul_phi2 C0 D0 hl0 one_pos hh0
  have τm := Geo.tau1_mul_tau2 C0 D0 hl0 one_pos hh0
  have τ2p := Geo.tau2_pos C0 D0 hl0 one_pos hh0
  have φ2p := Geo.phi2_pos C0 D0 hl0 one_pos hh0
  obtain ⟨i1, i2, i3, i4⟩ := Geo.round_trip_tl C0 D0 hl0 one_pos hh0
  obtain ⟨b, hb⟩ : ∃ b, b = Geo.b 209050000 5017200000 l 1 h := ⟨_, rfl⟩
  obtain ⟨bs, hbs⟩ : ∃ bs, bs = Geo.bStar 209050000 5017200000 l 1 h := ⟨_, rfl⟩
  obtain ⟨δ, hδ⟩ : ∃ δ, δ = Geo.delta 209050000 5017200000 l 1 h := ⟨_, rfl⟩
  have eb : b = (l + 1 * h) / 209050000 + h / 5017200000 := by rw [hb]; rfl
  have ebs : bs = (l + 1 * h) / 209050000 - h / 5017200000 := by rw [hbs]; rfl
  have eδ : δ = b ^ 2 - 4 * l * h / (209050000 * 5017200000) := by rw [hδ, hb]; rfl
  have ht2 : Geo.tau2 209050000 5017200000 l 1 h = 209050000 * 5017200000 / (2 * l * h) * (b + √δ) := by rw [hb, hδ]; rfl
  have hf2 : Geo.phi2 209050000 5017200000 l 1 h = 209050000 / (2 * 1 * h) * (bs + √δ) := by rw [hbs, hδ]; rfl
  have hq1 : Geo.q1 209050000 5017200000 l 1 h = Geo.tau1 209050000 5017200000 l 1 h * Geo.phi2 209050000 5017200000 l 1 h /
    (209050000 * (Geo.phi2 209050000 5017200000 l 1 h + -Geo.phi1 209050000 5017200000 l 1 h)) := by rw [← sub_eq_add_neg]; rfl
  have hq2 : Geo.q2 209050000 5017200000 l 1 h = Geo.tau2 209050000 5017200000 l 1 h * -Geo.phi1 209050000 5017200000 l 1 h /
    (209050000 * (Geo.phi2 209050000 5017200000 l 1 h + -Geo.phi1 209050000 5017200000 l 1 h)) := by
      rw [← sub_eq_add_neg, mul_neg, ← neg_mul]; rfl
  have B1 : Btw (1 : ℝ) 1 1 := .lit one_pos
  have BC : Btw (209050000 : ℝ) 209050000 209050000 := .lit C0
  have BD : Btw (5017200000 : ℝ) 5017200000 5017200000 := .lit D0
  have B2 : Btw (2 : ℝ) 2 2 := .lit two_pos
  have B4 : Btw (4 : ℝ) 4 4 := .lit (by norm_num)
  have Bx := (hl.add (B1.mul hh)).div BC
  have By := hh.div BD
  have Bb : Btw b 0.00000000986 0.0000000101 := by
    have := Bx.add By
    rw [← eb] at this
    exact ⟨by norm_num, le_trans (by norm_num) this.2.1, this.2.2.trans (by norm_num)⟩
  have Bbs : Btw bs 0.0000000095 0.0000000097 := by
    have h1 := Bx.2.1
    have h2 := Bx.2.2
    have h3 := By.2.1
    have h4 := By.2.2
    rw [ebs]
    refine ⟨by norm_num, ?_, ?_⟩
    · norm_num at h1 h4 ⊢; linarith
    · norm_num at h2 h3 ⊢; linarith
  have Bn := ((B4.mul hl).mul hh).div (BC.mul BD)
  have Bδ : Btw δ (9.3 / 10 ^ 17) (1.0201 / 10 ^ 16) := by
    refine ⟨by norm_num, ?_, ?_⟩
    · rw [eδ]
      have h1 : (0.00000000986 : ℝ) ^ 2 ≤ b ^ 2 := pow_le_pow_left₀ (by norm_num) Bb.2.1 2
      have h2 := Bn.2.2
      norm_num at h1 h2 ⊢
      linarith
    · rw [eδ]
      have h1 : b ^ 2 ≤ (0.0000000101 : ℝ) ^ 2 := pow_le_pow_left₀ Bb.pos.le Bb.2.2 2
      have h2 := Bn.pos
      norm_num at h1 h2 ⊢
      linarith
  have Bs : Btw (√δ) 0.0000000096 0.0000000101 := by
    refine ⟨by norm_num, Real.le_sqrt_of_sq_le (le_trans (by norm_num) Bδ.2.1), ?_⟩
    rw [Real.sqrt_le_left (by norm_num)]
    exact Bδ.2.2.trans (by norm_num)
  have wk : ∀ {x a b c d : ℝ}, Btw x a b → 0 < c → c ≤ a → b ≤ d → Btw x c d :=
    fun h h0 h1 h2 => ⟨h0, h1.trans h.2.1, h.2.2.trans h2⟩
  have Bt2 : Btw (Geo.tau2 209050000 5017200000 l 1 h) (1 * 10 ^ 10) (1.09 * 10 ^ 10) := by
    rw [ht2]
    exact wk (((BC.mul BD).div ((B2.mul hl).mul hh)).mul (Bb.add Bs)) (by norm_num) (by norm_num) (by norm_num)
  have Bf2 : Btw (Geo.phi2 209050000 5017200000 l 1 h) 2.4 2.65 := by
    rw [hf2]
    exact wk ((BC.div ((B2.mul B1).mul hh)).mul (Bbs.add Bs)) (by norm_num) (by norm_num) (by norm_num)
  have Bt1 : Btw (Geo.tau1 209050000 5017200000 l 1 h) (9 * 10 ^ 7) (1.1 * 10 ^ 8) := by
    have e1 : Geo.tau1 209050000 5017200000 l 1 h = 209050000 * 5017200000 / (l * h) / Geo.tau2 209050000 5017200000 l 1 h := by
      rw [← τm, mul_div_cancel_right₀ _ τ2p.ne']
    rw [e1]
    exact wk (((BC.mul BD).div (hl.mul hh)).div Bt2) (by norm_num) (by norm_num) (by norm_num)
  have Bf1 : Btw (-Geo.phi1 209050000 5017200000 l 1 h) 0.0157 0.0175 := by
    have e1 : -Geo.phi1 209050000 5017200000 l 1 h = 209050000 / (1 * 5017200000) / Geo.phi2 209050000 5017200000 l 1 h := by
      rw [eq_div_iff φ2p.ne', neg_mul, φm, neg_neg]
    rw [e1]
    exact wk ((BC.div (B1.mul BD)).div Bf2) (by norm_num) (by norm_num) (by norm_num)
  have Bden := BC.mul (Bf2.add Bf1)
  have Bq1 : Btw (Geo.q1 209050000 5017200000 l 1 h) 0.38 0.6 := by
    rw [hq1]; exact wk ((Bt1.mul Bf2).div Bden) (by norm_num) (by norm_num) (by norm_num)
  have Bq2 : Btw (Geo.q2 209050000 5017200000 l 1 h) 0.28 0.4 := by
    rw [hq2]; exact wk ((Bt2.mul Bf1).div Bden) (by norm_num) (by norm_num) (by norm_num)
  refine ⟨?_, max_le (((Bt2.div BC).div Bq1).2.2.trans (by norm_num)) (((Bt2.div BC).div Bq2).2.2.trans (by norm_num))⟩
  obtain ⟨P, hP⟩ : ∃ P, P = Geo.toIR 209050000 5017200000 l 1 h := ⟨_, rfl⟩
  have j1 : P.l = l := by rw [hP]; exact i1
  have j2 : P.C = 209050000 := by rw [hP]; exact i2
  have j3 : P.D = 5017200000 := by rw [hP]; exact i3
  have j4 : P.h = h := by rw [hP]; exact i4
  have j5 : P.e = 1 := by rw [hP]; rfl
  change Btw (Geo.toIR _ _ _ _ _).q1 _ _ at Bq1
  change Btw (Geo.toIR _ _ _ _ _).q2 _ _ at Bq2
  change Btw (Geo.toIR _ _ _ _ _).d1 _ _ at Bt1
  change Btw (Geo.toIR _ _ _ _ _).d2 _ _ at Bt2
  rw [← hP] at Bq1 Bq2 Bt1 Bt2 ⊢
  unfold IRPar.ConvNormal
  rw [j1, j2, j3, j4, j5]
  simp only [List.forall_mem_cons, List.not_mem_nil, IsEmpty.forall_iff, forall_const, and_true]
  have q : ∀ {x : ℝ}, 0 < x → Btw x x x := fun h => .lit h
  refine ⟨B1.ok ?_ ?_, (q (by norm_num)).ok ?_ ?_, (q (by norm_num)).ok ?_ ?_, (q (by norm_num)).ok ?_ ?_, (Bq1.add Bq2).ok ?_ ?_,
    hl.ok ?_ ?_, (Bq1.mul Bt2).ok ?_ ?_, (Bq2.mul Bt1).ok ?_ ?_, ((Bq1.mul Bt2).add (Bq2.mul Bt1)).ok ?_ ?_, (Bt1.mul Bt2).ok ?_ ?_,
    BC.ok ?_ ?_, (hl.mul Bq1).ok ?_ ?_, (hl.mul Bq2).ok ?_ ?_, (Bt1.mul (hl.mul Bq1)).ok ?_ ?_, (Bt2.mul (hl.mul Bq2)).ok ?_ ?_,
    ((Bt1.mul (hl.mul Bq1)).add (Bt2.mul (hl.mul Bq2))).ok ?_ ?_, (q (by norm_num)).ok ?_ ?_, (Bt1.mul (hl.mul Bq2)).ok ?_ ?_,
    (Bt2.mul (hl.mul Bq1)).ok ?_ ?_, ((Bt1.mul (hl.mul Bq2)).add (Bt2.mul (hl.mul Bq1))).ok ?_ ?_, (q (by norm_num)).ok ?_ ?_,
    (q (by norm_num)).ok ?_ ?_, (hh.mul (q (by norm_num))).ok ?_ ?_, (q (by norm_num)).ok ?_ ?_, (q (by norm_num)).ok ?_ ?_⟩ <;> norm_num

set_option maxHeartbeats 2000000 in
theorem IRPar.defaultD_sizes : (∀ x ∈ Geo.sizes (defaultD.C / (1000 * 4181)) (defaultD.D / (1000 * 4181)) defaultD.l defaultD.e defaultD.h ++
    Geo.qSizes defaultD.C defaultD.D defaultD.l defaultD.e defaultD.h, (2⁻¹ : ℝ) ^ 1022 ≤ x ∧ 2 * x ≤ 10 ^ 61) ∧ 25 ≤ defaultD.C := by
  obtain ⟨⟨a1, a2⟩, ⟨b1, b2⟩, -⟩ := defaultD_bounds
  have ho := defaultD_ok
  have hC0 : 0 < defaultD.C := Geo.invC_pos ho.q1 ho.q2 ho.d1 ho.d2
  have hD0 : 0 < defaultD.D := Geo.invD_pos ho.q1 ho.q2 ho.d1 ho.d2 ho.e
  have hh0 : 0 < defaultD.h := Geo.invH_pos ho.q1 ho.q2 ho.d1 ho.d2 ho.e
  have hl0 : 0 < defaultD.l := Geo.invL_pos ho.q1 ho.q2
  have he0 : defaultD.e = 1 := rfl
  obtain ⟨f1, f2, -, -⟩ := Geo.round_trip_ir ho.q1 ho.q2 ho.d1 ho.d2 ho.e
  change Geo.tau1 defaultD.C defaultD.D defaultD.l defaultD.e defaultD.h = 9 at f1
  change Geo.tau2 defaultD.C defaultD.D defaultD.l defaultD.e defaultD.h = 400 at f2
  have hl : defaultD.l = 1 / (defaultD.q1 + defaultD.q2) := rfl
  have hC : defaultD.C = 9 * 400 / (defaultD.q1 * 400 + defaultD.q2 * 9) := rfl
  have hDX : defaultD.D = (defaultD.l * (9 * (defaultD.l * defaultD.q1) + 400 * (defaultD.l * defaultD.q2)) - defaultD.C) / 1 := rfl
  have hh : defaultD.h = defaultD.D / (9 * (defaultD.l * defaultD.q2) + 400 * (defaultD.l * defaultD.q1)) := rfl
  rw [he0] at f1 f2 ⊢
  generalize defaultD.q1 = q1 at *
  generalize defaultD.q2 = q2 at *
  generalize defaultD.l = l at *
  generalize defaultD.C = C at *
  generalize defaultD.D = D at *
  generalize defaultD.h = h at *
  clear ho
  obtain ⟨k1, -, -⟩ := Geo.cond_sq hC0 hD0 hl0 one_pos hh0
  have φp := Geo.phi_sub hC0 hD0 hl0 one_pos hh0
  have hs0 := Geo.sqrt_pos hC0 hD0 hl0 one_pos hh0
  have Bq1 : Btw q1 0.299 0.301 := ⟨by norm_num, a1, a2⟩
  have Bq2 : Btw q2 0.399 0.401 := ⟨by norm_num, b1, b2⟩
  have B1 : Btw (1 : ℝ) 1 1 := .lit one_pos
  have B2 : Btw (2 : ℝ) 2 2 := .lit two_pos
  have B4 : Btw (4 : ℝ) 4 4 := .lit (by norm_num)
  have B9 : Btw (9 : ℝ) 9 9 := .lit (by norm_num)
  have B400 : Btw (400 : ℝ) 400 400 := .lit (by norm_num)
  have wk : ∀ {x a b c d : ℝ}, Btw x a b → 0 < c → c ≤ a → b ≤ d → Btw x c d :=
    fun h h0 h1 h2 => ⟨h0, h1.trans h.2.1, h.2.2.trans h2⟩
  have Bl : Btw l 1.4 1.45 := by
    rw [hl]; exact wk (B1.div (Bq1.add Bq2)) (by norm_num) (by norm_num) (by norm_num)
  have BC : Btw C 25 30 := by
    rw [hC]; exact wk ((B9.mul B400).div ((Bq1.mul B400).add (Bq2.mul B9))) (by norm_num) (by norm_num) (by norm_num)
  have BX := Bl.mul ((B9.mul (Bl.mul Bq1)).add (B400.mul (Bl.mul Bq2)))
  have BD : Btw D 200 400 := by
    have h1 := BX.2.1
    have h2 := BX.2.2
    have h3 := BC.2.1
    have h4 := BC.2.2
    rw [hDX, div_one]
    refine ⟨by norm_num, ?_, ?_⟩
    · norm_num at h1 ⊢; linarith
    · norm_num at h2 ⊢; linarith
  have Bh : Btw h 0.5 4 := by
    rw [hh]
    exact wk (BD.div ((B9.mul (Bl.mul Bq2)).add (B400.mul (Bl.mul Bq1)))) (by norm_num) (by norm_num) (by norm_num)
  have eb : Geo.b C D l 1 h = (l + 1 * h) / C + h / D := rfl
  have Bk : Btw (Geo.cond C D l 1 h) 1 1.1 := by
    unfold Geo.cond; rw [f1, f2]; exact ⟨by norm_num, by norm_num, by norm_num⟩
  have Bb := ((Bl.add (B1.mul Bh)).div BC).add (Bh.div BD)
  rw [← eb] at Bb
  have eS : √(Geo.delta C D l 1 h) = Geo.b C D l 1 h / Geo.cond C D l 1 h := by
    rw [k1, div_div_cancel₀ Bb.pos.ne']
  have Bs := Bb.div Bk
  rw [← eS] at Bs
  have Bbb := Bb.mul Bb
  rw [← sq] at Bbb
  have Bg := Bb.add ((B2.mul Bbb).div Bs)
  have Btc := (BC.mul BD).div ((B2.mul Bl).mul Bh)
  have Bpc := BC.div ((B2.mul B1).mul Bh)
  have Bdp := (BC.mul Bs).div (B1.mul Bh)
  have q : ∀ {x : ℝ}, 0 < x → Btw x x x := fun h => .lit h
  have Bw : Btw (1000 * 4181 : ℝ) (1000 * 4181) (1000 * 4181) := q (by norm_num)
  have B41 : Btw (4181 : ℝ) 4181 4181 := q (by norm_num)
  refine ⟨?_, BC.2.1⟩
  unfold Geo.sizes Geo.qSizes
  have eC : C / (1000 * 4181) * 4181 * 1000 = C := by field_simp
  have eD : D / (1000 * 4181) * 4181 * 1000 = D := by field_simp
  simp only [eC, eD, φp, f2, List.cons_append, List.nil_append]
  simp only [List.forall_mem_cons, List.not_mem_nil, IsEmpty.forall_iff, forall_const, and_true]
  refine ⟨(q (by norm_num)).ok ?_ ?_, (q (by norm_num)).ok ?_ ?_, B4.ok ?_ ?_, B2.ok ?_ ?_, ((BC.div Bw).mul B41).ok ?_ ?_,
    ((BD.div Bw).mul B41).ok ?_ ?_, BC.ok ?_ ?_, BD.ok ?_ ?_, (BC.mul BD).ok ?_ ?_, (B1.mul Bh).ok ?_ ?_, (Bl.add (B1.mul Bh)).ok ?_ ?_,
    ((Bl.add (B1.mul Bh)).div BC).ok ?_ ?_, (Bh.div BD).ok ?_ ?_, Bb.ok ?_ ?_, Bbb.ok ?_ ?_, (B2.mul Bbb).ok ?_ ?_,
    (B4.mul Bl).ok ?_ ?_, ((B4.mul Bl).mul Bh).ok ?_ ?_, (((B4.mul Bl).mul Bh).div (BC.mul BD)).ok ?_ ?_,
    ((B2.mul Bbb).div Bs).ok ?_ ?_, Bg.ok ?_ ?_,
    (B2.mul Bl).ok ?_ ?_, ((B2.mul Bl).mul Bh).ok ?_ ?_, Btc.ok ?_ ?_, (Btc.mul Bg).ok ?_ ?_, (B2.mul B1).ok ?_ ?_,
    ((B2.mul B1).mul Bh).ok ?_ ?_, Bpc.ok ?_ ?_, (Bpc.mul Bg).ok ?_ ?_, (B2.mul (Bpc.mul Bg)).ok ?_ ?_,
    (BC.mul (B2.mul (Bpc.mul Bg))).ok ?_ ?_, (B400.mul Bdp).ok ?_ ?_, (BC.mul Bdp).ok ?_ ?_, (B400.div BC).ok ?_ ?_⟩ <;> norm_num

/-- **C112** (`TwoLayerModel()` in double precision).  Converted to impulse response parameters and back, every parameter is what
it was, to within a relative error of 10⁻⁸. -/
theorem C112_default_two_layer {m : TLM U0 (FR double)} (hm : TLM.init U0.regD (TLM.defaultArgs U0.regD) = .ok m)
    {dt : Qty U0 (FR double)} (hdt : UnitOk U0.regD dt.unit U0.regD.yr) :
    ∃ t m2 t2 du' dl' l' h', m.getImpulseResponseParameters U0.regD = .ok t ∧ IRM.init U0.regD (t.args (.qty dt)) = .ok m2 ∧
      m2.getTwoLayerParameters U0.regD = .ok t2 ∧
      t2.du = ⟨FR.fin du', m.du.unit⟩ ∧ t2.dl = ⟨FR.fin dl', m.dl.unit⟩ ∧ t2.lambda0 = ⟨FR.fin l', m.lambda0.unit⟩ ∧
      t2.eta = ⟨FR.fin h', m.eta.unit⟩ ∧ t2.efficacy = m.efficacy ∧
      |du' - 50| ≤ 10⁻¹ ^ 8 * 50 ∧ |dl' - 1200| ≤ 10⁻¹ ^ 8 * 1200 ∧
      |l' - TLPar.defaultD.l| ≤ 10⁻¹ ^ 8 * TLPar.defaultD.l ∧ |h' - TLPar.defaultD.h| ≤ 10⁻¹ ^ 8 * TLPar.defaultD.h := by
  have hp := TLM.default_plain hm
  obtain ⟨l, hl⟩ : ∃ l, l = TLPar.defaultD.l := ⟨_, rfl⟩
  obtain ⟨h, hh⟩ : ∃ h, h = TLPar.defaultD.h := ⟨_, rfl⟩
  have bl : Btw l 1.24 1.25 := by rw [hl]; exact ⟨by norm_num, TLPar.defaultD_l.1, TLPar.defaultD_l.2⟩
  have bh : Btw h 0.79 0.81 := by rw [hh]; exact ⟨by norm_num, TLPar.defaultD_h.1, TLPar.defaultD_h.2⟩
  rw [← hl, ← hh] at hp ⊢
  obtain ⟨g1, g2, -⟩ := defaultD_geo bl bh
  obtain ⟨i1, i2⟩ := defaultD_modes bl bh
  obtain ⟨C, hC⟩ : ∃ C : ℝ, C = 209050000 := ⟨_, rfl⟩
  obtain ⟨D, hD⟩ : ∃ D : ℝ, D = 5017200000 := ⟨_, rfl⟩
  rw [← hC, ← hD] at g1 g2 i1 i2
  have hC0 : 0 < C := by rw [hC]; norm_num
  have hD0 : 0 < D := by rw [hD]; norm_num
  have hκ1 := (Geo.cond_sq hC0 hD0 bl.pos one_pos bh.pos).2.2
  have hρ0 : 0 ≤ Geo.spread C D l 1 h := by
    refine le_trans ?_ (le_max_left _ _)
    have := Geo.tau2_pos hC0 hD0 bl.pos one_pos bh.pos
    have := Geo.q1_pos hC0 hD0 bl.pos one_pos bh.pos
    positivity
  have hs : 1 + 2 * C / (1 * D) ≤ 1.1 := by rw [hC, hD]; norm_num
  have hs0 : 0 ≤ 1 + 2 * C / (1 * D) := by positivity
  obtain ⟨κ, hκ⟩ : ∃ κ, κ = Geo.cond C D l 1 h := ⟨_, rfl⟩
  obtain ⟨ρ, hρ⟩ : ∃ ρ, ρ = Geo.spread C D l 1 h := ⟨_, rfl⟩
  obtain ⟨s, hs'⟩ : ∃ s, s = 1 + 2 * C / (1 * D) := ⟨_, rfl⟩
  rw [← hκ] at g2
  rw [← hρ] at i2 hρ0
  rw [← hs'] at hs hs0
  have hx : κ ^ 2 * ρ ≤ 220 := by
    calc κ ^ 2 * ρ ≤ 1.1 * 200 := mul_le_mul g2 i2 hρ0 (by norm_num)
      _ = 220 := by norm_num
  have hxs : κ ^ 2 * ρ * s ≤ 242 := by
    calc κ ^ 2 * ρ * s ≤ 220 * 1.1 := mul_le_mul hx hs hs0 (by norm_num)
      _ = 242 := by norm_num
  obtain ⟨t, m2, t2, du', dl', l', h', a, b, c, d1, d2, d3, d4, d5, e1, e2, e3, e4⟩ := C112_two_layer U0.dimensionalD
    (double_accurate (10 ^ 61)) (by positivity) hp (by norm_num) (by norm_num) bl.pos one_pos bh.pos (C := C) (D := D)
    (by rw [hC]; norm_num) (by rw [hD]; norm_num) hκ hρ hs' (by norm_num at hx ⊢; linarith) g1 i1 hdt
  refine ⟨t, m2, t2, du', dl', l', h', a, b, c, by rw [d1, hp.du], by rw [d2, hp.dl], by rw [d3, hp.lambda0], by rw [d4, hp.eta], d5,
    e1.trans ?_, e2.trans ?_, e3.trans ?_, e4.trans ?_⟩
  · norm_num at hx ⊢; linarith
  · norm_num at hxs ⊢; linarith
  · exact mul_le_mul_of_nonneg_right (by norm_num at hx ⊢; linarith) bl.pos.le
  · exact mul_le_mul_of_nonneg_right (by norm_num at hxs ⊢; linarith) bh.pos.le

/-- **C112** (`ImpulseResponseModel()` in double precision).  Converted to two-layer parameters and back, both timescales are what they
were to within 10⁻⁹ years and both coefficients to within 10⁻⁹ K/(W/m²). -/
theorem C112_default_impulse_response {m : IRM U0 (FR double)} (hm : IRM.init U0.regD (IRM.defaultArgs U0.regD) = .ok m)
    {dt : Qty U0 (FR double)} (hdt : UnitOk U0.regD dt.unit U0.regD.s) :
    ∃ t m2 t2 d1' d2' q1' q2', m.getTwoLayerParameters U0.regD = .ok t ∧
      TLM.init U0.regD (t.args (TLM.defaultArgs U0.regD).a (.qty dt)) = .ok m2 ∧ m2.getImpulseResponseParameters U0.regD = .ok t2 ∧
      t2.d1 = ⟨FR.fin d1', m.d1.unit⟩ ∧ t2.d2 = ⟨FR.fin d2', m.d2.unit⟩ ∧ t2.q1 = ⟨FR.fin q1', m.q1.unit⟩ ∧
      t2.q2 = ⟨FR.fin q2', m.q2.unit⟩ ∧ t2.efficacy = m.efficacy ∧
      |d1' - 9| ≤ 10⁻¹ ^ 9 ∧ |d2' - 400| ≤ 10⁻¹ ^ 9 ∧
      |q1' - IRPar.defaultD.q1| ≤ 10⁻¹ ^ 9 ∧ |q2' - IRPar.defaultD.q2| ≤ 10⁻¹ ^ 9 := by
  have hp := IRM.default_plain hm
  obtain ⟨n1, n2⟩ := IRPar.defaultD_normal
  obtain ⟨n3, n4⟩ := IRPar.defaultD_sizes
  have ho := IRPar.defaultD_ok
  have n1' : IRPar.defaultD.ConvNormal (2⁻¹ ^ 1022) (10 ^ 61) := fun x hx => ⟨(n1 x hx).1, (n1 x hx).2.trans (by norm_num)⟩
  have hs : IRPar.defaultD.loss ≤ 1.5 := by unfold IRPar.loss; norm_num at n2 ⊢; linarith
  have hs1 : 0 ≤ IRPar.defaultD.loss := by
    have hC : 0 < IRPar.defaultD.C := by linarith
    have hD : 0 < IRPar.defaultD.D := Geo.invD_pos ho.q1 ho.q2 ho.d1 ho.d2 ho.e
    have he := ho.e
    unfold IRPar.loss; positivity
  have hκ : IRPar.defaultD.cond = 409 / 391 := by
    show ((400 : ℝ) + 9) / (400 - 9) = _
    norm_num
  have e1 : IRPar.defaultD.d1 = 9 := rfl
  have e2 : IRPar.defaultD.d2 = 400 := rfl
  obtain ⟨t, m2, t2, d1', d2', q1', q2', a, b, c, f1, f2, f3, f4, f5, g1, g2, g3, g4⟩ := C112_impulse_response U0.dimensionalD
    (double_accurate (10 ^ 61)) (by positivity) hp ho n1' n3 rfl rfl (by rw [hκ]; norm_num at hs ⊢; linarith) hdt
  rw [hκ, e2] at g1 g2 g3 g4
  rw [e1] at g1
  have h1 : 6300 * (2⁻¹ : ℝ) ^ 53 * IRPar.defaultD.loss * (409 / 391) * 400 ≤ 10⁻¹ ^ 9 := by norm_num at hs ⊢; linarith
  have h2 : 70000 * (2⁻¹ : ℝ) ^ 53 * IRPar.defaultD.loss * (409 / 391) ^ 2 * (400 / IRPar.defaultD.C) ≤ 10⁻¹ ^ 9 := by
    calc _ ≤ 70000 * (2⁻¹ : ℝ) ^ 53 * 1.5 * (409 / 391) ^ 2 * (400 / 25) := by gcongr
      _ ≤ _ := by norm_num
  exact ⟨t, m2, t2, d1', d2', q1', q2', a, b, c, by rw [f1, hp.d1], by rw [f2, hp.d2], by rw [f3, hp.q1], by rw [f4, hp.q2], f5,
    g1.trans h1, g2.trans h1, g3.trans h2, g4.trans h2⟩

/-- the hypotheses of `C112_two_layer` are met by `TwoLayerModel()` -/
example : ∃ m, TLM.init U0.regD (TLM.defaultArgs U0.regD) = .ok m := ⟨_, U0.regD_default.choose_spec.1⟩

/-- the hypotheses of `C112_impulse_response` are met by `ImpulseResponseModel()` -/
example : ∃ m, IRM.init U0.regD (IRM.defaultArgs U0.regD) = .ok m := ⟨_, U0.regD_default_ir.choose_spec.1⟩

end TwoLayer
