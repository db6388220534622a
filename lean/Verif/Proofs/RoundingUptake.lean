import Verif.Proofs.RoundingGeo

/-! # Rounding errors of the heat uptake of the impulse response model with an efficacy other than 1 -/

set_option linter.unusedSimpArgs false
set_option linter.unusedSectionVars false

namespace TwoLayer
section
variable {N : Type} [Fintype N] [DecidableEq N] {r : Rounding} {R : Registry N (FR r)} {u μ Ω : ℝ}

theorem FQ.nsub {x : ℝ} : Qty.nsub R (Arith.ofNat 1) ⟨(FR.fin x : FR r), 0⟩ = .ok ⟨FR.fin (r.fl (r.fl 1 - x)), 0⟩ := by
  simp only [Qty.nsub, Qty.magIn, true_or, if_true, FR.ofNat_eq, Nat.cast_one, FR.fin_sub]

theorem IRM.Plain.fphys {m : IRM N (FR r)} {p : IRPar} (hp : m.Plain R p) (hdt : IsFNum R m.core.deltaT R.yr p.dt) : m.FPhys R p := by
  have hself : ∀ (x : ℝ) (u : Units N), IsFNum R ⟨FR.fin x, u⟩ u x := by
    intro x u; simp [IsFNum, Qty.toUnit, Qty.magIn]
  exact ⟨by rw [hp.q1]; exact hself _ _, by rw [hp.q2]; exact hself _ _, by rw [hp.d1]; exact hself _ _,
    by rw [hp.d2]; exact hself _ _, by rw [hp.efficacy]; exact hself _ _, hdt⟩

theorem IRPar.Ok.cond {p : IRPar} (hp : p.Ok) : Geo.cond p.C p.D p.l p.e p.h = (p.d2 + p.d1) / (p.d2 - p.d1) := by
  obtain ⟨g1, g2, -, -⟩ := Geo.round_trip_ir hp.q1 hp.q2 hp.d1 hp.d2 hp.e
  have g1 : Geo.tau1 p.C p.D p.l p.e p.h = p.d1 := g1
  have g2 : Geo.tau2 p.C p.D p.l p.e p.h = p.d2 := g2
  unfold Geo.cond
  rw [g1, g2]

set_option maxHeartbeats 1000000 in
/-- the term of the heat uptake that an efficacy other than 1 adds, and the heat uptake itself, in rounded arithmetic -/
theorem IRM.fterm (hr : r.Accurate u μ Ω) (hu : 0 ≤ u) (ho : r.fl 1 = 1) {m : IRM N (FR r)} {p : IRPar} (hp : m.Plain R p)
    (hok : p.Ok) (he1 : p.e ≠ 1) {v κ ε M W : ℝ} (hM : 0 ≤ M) (hv : v = 35 * u * (1 + 2 * p.C / (p.e * p.D)))
    (hκ : κ = (p.d2 + p.d1) / (p.d2 - p.d1)) (hε : ε = 180 * v * κ ^ 2) (hs : 20000 * v * κ ^ 2 ≤ 1)
    (hW : W = |p.e - 1| * p.h * (1 + (p.phi2 - p.phi1)) * (p.q1 + p.q2) * M) (hin : p.ConvNormal μ Ω)
    (hg : ∀ x ∈ Geo.sizes (p.C / (1000 * 4181)) (p.D / (1000 * 4181)) p.l p.e p.h, μ ≤ x ∧ 2 * x ≤ Ω)
    (hx : ∀ x ∈ [1 + (p.phi2 - p.phi1), (1 + (p.phi2 - p.phi1)) * (p.q1 * M), (1 + (p.phi2 - p.phi1)) * (p.q2 * M),
      (1 + (p.phi2 - p.phi1)) * ((p.q1 + p.q2) * M), |p.e - 1|, p.h * |p.e - 1|, W], μ ≤ x ∧ 8 * x ≤ Ω) :
    u ≤ 1 / 100 ∧ u ≤ ε ∧ ε ≤ 9 / 1000 ∧ ∃ l' : ℝ, ∃ T : ℝ → ℝ → ℝ, Ap u 4 p.l p.l l' ∧
      (∀ t1 t2 f, m.calcNextRndt R (FR.fin t1) (FR.fin t2) (FR.fin f) (FR.fin p.e) =
        .ok (FR.fin (r.fl (r.fl (f - r.fl (l' * r.fl (t1 + t2))) - T t1 t2)))) ∧
      ∀ t1 t2, |t1| ≤ 2 * (p.q1 * M) → |t2| ≤ 2 * (p.q2 * M) →
        |(p.e - 1) * p.h * ((t1 + t2) - (p.phi1 * t1 + p.phi2 * t2))| ≤ 2 * W ∧
        |T t1 t2 - (p.e - 1) * p.h * ((t1 + t2) - (p.phi1 * t1 + p.phi2 * t2))| ≤ 18 * ε * W := by
  have hz := hr.zero
  have hb := hok.boxes
  have hC : 0 < p.C := Geo.invC_pos hok.q1 hok.q2 hok.d1 hok.d2
  have hD : 0 < p.D := Geo.invD_pos' hb.q1 hb.q2 hb.d1 hb.d2 hb.ne hb.e
  have hl : 0 < p.l := Geo.invL_pos hb.q1 hb.q2
  have hh : 0 < p.h := Geo.invH_pos hok.q1 hok.q2 hok.d1 hok.d2 hok.e
  have he := hb.e
  have hq1 := hb.q1
  have hq2 := hb.q2
  obtain ⟨k1, k2, k3⟩ := Geo.cond_sq hC hD hl he hh
  rw [hok.cond, ← hκ] at k1 k2 k3
  have hg0 : 0 ≤ 2 * p.C / (p.e * p.D) := by positivity
  have hκ2 : 1 ≤ κ ^ 2 := by nlinarith only [k3]
  have huv : 35 * u ≤ v := by rw [hv]; nlinarith only [hu, hg0]
  have hv0 : 0 ≤ v := by linarith
  have hvε : 180 * v ≤ ε := by rw [hε]; nlinarith only [hv0, hκ2]
  have hε1 : ε ≤ 9 / 1000 := by rw [hε]; linarith
  have huε : u ≤ ε := by linarith
  have hε0 : 0 ≤ ε := by linarith
  have hu1 : u ≤ 1 / 100 := by linarith
  refine ⟨hu1, huε, hε1, ?_⟩
  -- the two-layer parameters
  obtain ⟨X, hX⟩ : ∃ X, X = p.l * (p.d1 * (p.l * p.q1) + p.d2 * (p.l * p.q2)) := ⟨_, rfl⟩
  have hDX : p.D = (X - p.C) / p.e := by rw [hX]; rfl
  have hXe : X = p.C + p.e * p.D := by rw [hDX]; field_simp; ring
  have hs1 : (X + p.C) / p.e = 2 * p.C / p.e + p.D := by rw [hXe]; field_simp; ring
  have hs' : 2 * p.C / p.e + p.D = (1 + 2 * p.C / (p.e * p.D)) * p.D := by field_simp; ring
  obtain ⟨den, hden⟩ : ∃ den, den = p.d1 * (p.l * p.q2) + p.d2 * (p.l * p.q1) := ⟨_, rfl⟩
  have hhD : p.h = p.D / den := by rw [hden]; rfl
  have hs2 : (X + p.C) / p.e / den = p.h * (1 + 2 * p.C / (p.e * p.D)) := by rw [hs1, hs', hhD]; ring
  obtain ⟨l', du', dl', h', hconv, e1, e2, e3, e4⟩ := IRM.fconv_err (R := R) hr hu hu1
    ⟨hp.q1, hp.q2, hp.d1, hp.d2, hp.efficacy⟩ hb.q1 hb.q2 hb.d1 hb.d2 hb.e (l := p.l) (C := p.C) rfl rfl hX hden
    (by
      rw [hs2, hs1, show X + p.C = 2 * p.C + p.e * p.D by rw [hXe]; ring, hXe, hden]
      exact hin)
  obtain ⟨g1, g2, g3, g4⟩ := gammas hu hu1
  have hdu : 0 < p.C / (1000 * 4181) := by positivity
  have hdl : 0 < p.D / (1000 * 4181) := by positivity
  have Al : Ap v 1 p.l p.l l' := e1.rebase (abs_of_pos hl).le (mul_le_mul_of_nonneg_right (g1.trans (by linarith)) hl.le)
  have Adu : Ap v 1 (p.C / (1000 * 4181)) (p.C / (1000 * 4181)) du' :=
    e2.rebase (abs_of_pos hdu).le (mul_le_mul_of_nonneg_right (g2.trans (by linarith)) hdu.le)
  rw [← hDX] at e3 e4
  rw [← hhD] at e4
  have Adl : Ap v 1 (p.D / (1000 * 4181)) (p.D / (1000 * 4181)) dl' := by
    refine e3.rebase (abs_of_pos hdl).le ((mul_le_mul_of_nonneg_right g3 e3.B_nonneg).trans ?_)
    rw [hs1, hs', hv]
    have : 0 ≤ u * (1 + 2 * p.C / (p.e * p.D)) * (p.D / (1000 * 4181)) := by positivity
    linarith
  have Ah : Ap v 1 p.h p.h h' := by
    refine e4.rebase (abs_of_pos hh).le ((mul_le_mul_of_nonneg_right g4 e4.B_nonneg).trans (le_of_eq ?_))
    rw [hs2, hv]; ring
  obtain ⟨Z, hZ⟩ : ∃ Z, Z = -R.cwm2 + R.yr - (R.densityWater.unit + R.heatCapacityWater.unit) := ⟨_, rfl⟩
  have uZ : -R.cwm2 + R.yr - R.one - (R.densityWater.unit + R.heatCapacityWater.unit) = Z := by rw [hZ]; simp [Registry.one]
  have uE : -R.cwm2 + R.yr - R.one - R.yr = -R.cwm2 := by simp [Registry.one]
  rw [uZ, uE, ← hZ] at hconv
  -- the helper parameters
  obtain ⟨c, t1, t2, f1, f2, g, hgeo, -, -, -, gf1, gf2, -, -, -, Af1, Af2, -, -, -⟩ := geo_err (R := R)
    (hr.weaken (by linarith : u ≤ v)) hv0 hdu hdl hl he hh Adu Adl Al Ah (by ring : p.C = _) (by ring : p.D = _) rfl rfl
    (by rw [← k2]; exact hs) hg Z (-R.cwm2)
  have b0 := Geo.b_pos hC hD hl he hh
  have s0 := Geo.sqrt_pos hC hD hl he hh
  have φ1 : p.phi1 < 0 := Geo.phi1_neg hC hD hl he hh
  have φ2 : 0 < p.phi2 := Geo.phi2_pos hC hD hl he hh
  have hd : p.phi2 - p.phi1 = 2 * (p.C / (2 * p.e * p.h)) * √(Geo.delta p.C p.D p.l p.e p.h) := by
    rw [show p.phi1 = Geo.phi1 p.C p.D p.l p.e p.h from rfl, show p.phi2 = Geo.phi2 p.C p.D p.l p.e p.h from rfl]
    unfold Geo.phi1 Geo.phi2; ring
  have eφ1 : Geo.phi1 p.C p.D p.l p.e p.h = p.phi1 := rfl
  have eφ2 : Geo.phi2 p.C p.D p.l p.e p.h = p.phi2 := rfl
  rw [eφ1] at Af1
  rw [eφ2] at Af2
  obtain ⟨b, hb'⟩ : ∃ b, b = Geo.b p.C p.D p.l p.e p.h := ⟨_, rfl⟩
  obtain ⟨S, hS⟩ : ∃ S, S = √(Geo.delta p.C p.D p.l p.e p.h) := ⟨_, rfl⟩
  simp only [← hb', ← hS] at k1 b0 s0 Af1 Af2 hd
  obtain ⟨Φ, hΦ⟩ : ∃ Φ, Φ = p.phi2 - p.phi1 := ⟨_, rfl⟩
  rw [← hΦ] at hd hW hx
  have hΦ0 : 0 < Φ := by linarith
  have hF : p.C / (2 * p.e * p.h) * (b + 2 * b ^ 2 / S) ≤ 3 / 2 * κ ^ 2 * Φ := by
    have hbS : b = κ * S := by rw [k1]; field_simp
    have hg1 : b + 2 * b ^ 2 / S ≤ 3 * κ ^ 2 * S := by
      have e1 : 2 * b ^ 2 / S = 2 * κ ^ 2 * S := by rw [hbS]; field_simp
      have e2 : κ * S ≤ κ ^ 2 * S := mul_le_mul_of_nonneg_right (by nlinarith only [k3]) s0.le
      rw [e1, hbS]; linarith
    have hc0 : 0 < p.C / (2 * p.e * p.h) := by positivity
    refine (mul_le_mul_of_nonneg_left hg1 hc0.le).trans (le_of_eq ?_)
    rw [hd]; ring
  have p60 : (1 + v) ^ 49 - 1 ≤ 60 * v := by
    have h2 := pow_small hv0 49 (by norm_num; linarith)
    norm_num at h2
    nlinarith only [h2, hv0, hvε, hε1]
  have re : ∀ {X x : ℝ}, Ap v 49 X (p.C / (2 * p.e * p.h) * (b + 2 * b ^ 2 / S)) x → |X| ≤ Φ → Ap ε 1 X Φ x := by
    intro X x h hX
    refine h.rebase hX ?_
    calc ((1 + v) ^ 49 - 1) * (p.C / (2 * p.e * p.h) * (b + 2 * b ^ 2 / S)) ≤ 60 * v * (3 / 2 * κ ^ 2 * Φ) :=
          mul_le_mul p60 hF h.B_nonneg (by positivity)
      _ = 90 * v * κ ^ 2 * Φ := by ring
      _ ≤ ε * Φ := by
          rw [hε]
          have : 0 ≤ v * κ ^ 2 * Φ := by positivity
          linarith
  have Bf1 := re Af1 (by rw [abs_of_neg φ1]; linarith)
  have Bf2 := re Af2 (by rw [abs_of_pos φ2]; linarith)
  have Bh : Ap ε 1 p.h p.h h' := Ah.rebase (abs_of_pos hh).le (by
    rw [pow_one]; have : 0 ≤ v * p.h := by positivity
    nlinarith only [this, hvε, hh, hv0])
  have Bl : p.l = p.l := rfl
  simp only [List.forall_mem_cons, List.not_mem_nil, IsEmpty.forall_iff, forall_const, and_true] at hx
  obtain ⟨⟨m1, o1⟩, ⟨m2, o2⟩, ⟨m3, o3⟩, ⟨m7, o7⟩, ⟨m4, o4⟩, ⟨m5, o5⟩, ⟨m6, o6⟩⟩ := hx
  have hr' := hr.weaken huε
  have p9 : ∀ {k : ℕ}, k ≤ 8 → (1 + ε) ^ k - 1 ≤ 9 * ε := by
    intro k hk
    have h1 : (1 + ε) ^ k ≤ (1 + ε) ^ 8 := pow_le_pow_right₀ (by linarith) hk
    have h2 := pow_small hε0 8 (by norm_num; linarith)
    norm_num at h2
    nlinarith only [h1, h2, hε0, hε1]
  have rd : ∀ {k : ℕ} {X B x : ℝ}, Ap ε k X B x → μ ≤ B → 4 * B ≤ Ω → k ≤ 8 → Ap ε (k + 1) X B (r.fl x) := by
    intro k X B x h h1 h2 hk
    refine h.round hr' hε0 h1 (le_trans ?_ h2)
    have := p9 hk
    exact mul_le_mul_of_nonneg_right (by linarith) h.B_nonneg
  have B1 : Ap ε 1 1 1 (r.fl 1) := by rw [ho]; exact (Ap.exact (by norm_num)).mono hε0 (by norm_num) le_rfl
  have y1 := rd (B1.sub Bf1) m1 (by linarith) (by norm_num)
  have y2 := rd (B1.sub Bf2) m1 (by linarith) (by norm_num)
  have Be : Ap ε 1 (p.e - 1) |p.e - 1| (r.fl (p.e - r.fl 1)) := by
    rw [ho]; exact rd (Ap.exact le_rfl) m4 (by linarith [abs_nonneg (p.e - 1)]) (by norm_num)
  have Bhe := rd (Bh.mul hε0 Be) m5 (by linarith [m5, mul_nonneg hh.le (abs_nonneg (p.e - 1))]) (by norm_num)
  have W0 : 0 ≤ W := by rw [hW]; positivity
  have K1 : 0 ≤ (1 + Φ) * (p.q1 * M) := by positivity
  have K2 : 0 ≤ (1 + Φ) * (p.q2 * M) := by positivity
  refine ⟨l', fun t1 t2 => r.fl (r.fl (h' * r.fl (p.e - r.fl 1)) * r.fl (r.fl (r.fl (r.fl 1 - f1) * t1) + r.fl (r.fl (r.fl 1 - f2) * t2))),
    e1, ?_, ?_⟩
  · intro t1 t2 f
    have hne : Arith.eq (FR.fin p.e : FR r) (Arith.ofNat 1) = false := by
      rw [FR.ofNat_eq, Nat.cast_one, ho, FR.eq_fin]; simpa using he1
    have uw : -R.cwm2 + (0 + R.degC) = R.wm2 := by simp [Registry.cwm2, Registry.degC]
    unfold IRM.calcNextRndt
    rw [hconv, ok_bind, hne]
    simp only [Bool.false_eq_true, if_false]
    rw [hgeo]
    simp only [ok_bind]
    rw [gf1, gf2, FQ.nsub, ok_bind, FQ.nsub, ok_bind, FQ.mul, FQ.mul, FQ.add rfl, ok_bind]
    simp only [Qty.muln, FQ.mul, FR.ofNat_eq, Nat.cast_one, FR.fin_sub, FR.fin_mul, FR.fin_add]
    rw [if_pos uw]
    rfl
  · intro t1 t2 ht1 ht2
    have z1 : Ap ε 0 t1 (2 * (p.q1 * M)) t1 := Ap.exact ht1
    have z2 : Ap ε 0 t2 (2 * (p.q2 * M)) t2 := Ap.exact ht2
    have w1 := rd (y1.mul hε0 z1) (by linarith) (by linarith) (by norm_num)
    have w2 := rd (y2.mul hε0 z2) (by linarith) (by linarith) (by norm_num)
    have w3 := w1.add w2
    have eB : (1 + Φ) * (2 * (p.q1 * M)) + (1 + Φ) * (2 * (p.q2 * M)) = 2 * ((1 + Φ) * ((p.q1 + p.q2) * M)) := by ring
    have K3 : 0 ≤ (1 + Φ) * ((p.q1 + p.q2) * M) := by positivity
    rw [eB] at w3
    have w4 := rd w3 (by linarith) (by linarith) (by norm_num)
    have w5 := Bhe.mul hε0 w4
    have eW : p.h * |p.e - 1| * (2 * ((1 + Φ) * ((p.q1 + p.q2) * M))) = 2 * W := by rw [hW]; ring
    rw [eW] at w5
    have w6 := rd w5 (by linarith) (by linarith) (by norm_num)
    have eX : p.h * (p.e - 1) * ((1 - p.phi1) * t1 + (1 - p.phi2) * t2) =
        (p.e - 1) * p.h * ((t1 + t2) - (p.phi1 * t1 + p.phi2 * t2)) := by ring
    rw [eX] at w6
    exact ⟨w6.1, w6.2.trans ((mul_le_mul_of_nonneg_right (p9 (by norm_num)) (by linarith)).trans (le_of_eq (by ring)))⟩

/-- a heat uptake computed by `G` from the boxes -/
noncomputable def IRPar.fU' (r : Rounding) (p : IRPar) (G : ℝ → ℝ → ℝ → ℝ) (F : ℕ → ℝ) : ℕ → ℝ
  | 0 => 0
  | i + 1 => G (fboxes r p.q1 p.d1 p.dt F i) (fboxes r p.q2 p.d2 p.dt F i) (F i)

/-- if the heat uptake of a step is `G` of the boxes, the run succeeds and reports that -/
theorem IRM.fproduces_of {m : IRM N (FR r)} {p : IRPar} (hz : r.fl 0 = 0) (hc : m.Coherent R) (hp : m.FPhys R p)
    (h1 : p.d1 ≠ 0) (h2 : p.d2 ≠ 0) {G : ℝ → ℝ → ℝ → ℝ}
    (hG : ∀ t1 t2 f, m.calcNextRndt R (FR.fin t1) (FR.fin t2) (FR.fin f) (FR.fin p.e) = .ok (FR.fin (G t1 t2 f)))
    {d : DArg N (FR r)} {n : ℕ} (hn : n ≠ 0) {F : ℕ → ℝ} (hd : IsFForcing R d n F) :
    IRM.FProduces R m d n (fboxes r p.q1 p.d1 p.dt F) (fboxes r p.q2 p.d2 p.dt F)
      (fun i => r.fl (fboxes r p.q1 p.d1 p.dt F i + fboxes r p.q2 p.d2 p.dt F i)) (fseries n (p.fU' r G F)) := by
  have e1 : m.core.deltaTMag = FR.fin p.dt := by rw [hc.core.dtMag]; exact hp.dt.magIn
  have e2 : m.q1Mag = FR.fin p.q1 := by rw [hc.q1Mag]; exact hp.q1.magIn
  have e3 : m.q2Mag = FR.fin p.q2 := by rw [hc.q2Mag]; exact hp.q2.magIn
  have e4 : m.d1Mag = FR.fin p.d1 := by rw [hc.d1Mag]; exact hp.d1.magIn
  have e5 : m.d2Mag = FR.fin p.d2 := by rw [hc.d2Mag]; exact hp.d2.magIn
  have e6 : m.efficacyMag = FR.fin p.e := by rw [hc.efficacyMag]; exact hp.efficacy.magIn
  have hseq : ∀ i < n, (m.eng R).seq (fseries n F) i =
      .ok (FR.fin (fboxes r p.q1 p.d1 p.dt F i), FR.fin (fboxes r p.q2 p.d2 p.dt F i), FR.fin (p.fU' r G F i)) := by
    intro i
    induction i with
    | zero => intro _; simp [Eng.seq, hz]; exact ⟨rfl, rfl, rfl⟩
    | succ i ih =>
      intro hi
      simp only [Eng.seq, ih (by omega), getAt, fseries_getElem? n F i (by omega)]
      simp only [IRM.eng, e1, e2, e3, e4, e5, e6, fcalcNextTemp hz h1, fcalcNextTemp hz h2, hG]
      rfl
  obtain ⟨vals, w, hdd, hlen, hg, hmF⟩ := hd.good hn
  obtain ⟨v, hv, hI⟩ := (IRM.stepper R).times_ok (m.ready R vals w) (modelF R vals w) rfl vals.length (by simp)
    (fun i hi => ⟨_, by rw [hmF]; exact hseq i (by omega)⟩)
  have hrun : ∃ m', IRM.simulate R d m = (m', .ok ()) := by
    subst hdd
    exact ⟨_, (IRM.simulate_good R m hg).trans hv⟩
  obtain ⟨m', hrun⟩ := hrun
  obtain ⟨us, hpr, hlen', hus⟩ := IRM.fproduces hz hc hp h1 h2 hn hd hrun
  have hU : us = fseries n (p.fU' r G F) := by
    apply eq_fseries hlen'
    intro i hi
    obtain ⟨c, g1, g2⟩ := hus i hi
    rw [hseq i hi] at g2
    simp only [Except.ok.injEq, Prod.mk.injEq, true_and] at g2
    rw [g1, g2]
  rw [hU] at hpr
  exact hpr

/-- one step of the heat uptake, given the box temperatures -/
theorem IRPar.fstep_err (hr : r.Accurate u μ Ω) (hu : 0 ≤ u) (hu1 : u ≤ 1 / 100) {p : IRPar} (hok : p.Ok) {M W ε l' : ℝ}
    (hM : 0 ≤ M) (hW : 0 ≤ W) (hε : u ≤ ε) (hε1 : ε ≤ 9 / 1000) (hin : p.InRange M μ Ω) (hWΩ : 8 * W ≤ Ω) (hl : Ap u 4 p.l p.l l')
    {f t1 t2 T x : ℝ} (hf : |f| ≤ M) (h1 : |t1| ≤ 2 * (p.q1 * M)) (h2 : |t2| ≤ 2 * (p.q2 * M)) (hx : |x| ≤ 2 * W)
    (hT : |T - x| ≤ 18 * ε * W) :
    |r.fl (r.fl (f - r.fl (l' * r.fl (t1 + t2))) - T) - (f - p.l * (t1 + t2) - x)| ≤ 28 * u * M + 21 * ε * W := by
  have hq1 := hok.q1; have hq2 := hok.q2
  obtain ⟨-, -, hin⟩ := hin
  simp only [List.forall_mem_cons, List.not_mem_nil, IsEmpty.forall_iff, forall_const, and_true] at hin
  obtain ⟨⟨m1, o1⟩, ⟨m2, o2⟩, ⟨m3, o3⟩, -, -, ⟨m6, o6⟩⟩ := hin
  have p3 : ∀ {k : ℕ} {B : ℝ}, k ≤ 7 → 0 ≤ B → 2 * B ≤ Ω → (1 + u) ^ k * B ≤ Ω := fun hk hB hΩ =>
    (mul_le_mul_of_nonneg_right (pow_le_two hu hu1 hk) hB).trans hΩ
  have k1 : 0 ≤ p.q1 * M := by positivity
  have k2 : 0 ≤ p.q2 * M := by positivity
  have y1 : Ap u 0 t1 (2 * (p.q1 * M)) t1 := Ap.exact h1
  have y2 : Ap u 0 t2 (2 * (p.q2 * M)) t2 := Ap.exact h2
  have a1 := (y1.add y2).round hr hu (by linarith) (p3 (by norm_num) (by positivity) (by linarith))
  have eB : p.l * (2 * (p.q1 * M) + 2 * (p.q2 * M)) = 2 * M := by
    show 1 / (p.q1 + p.q2) * (2 * (p.q1 * M) + 2 * (p.q2 * M)) = 2 * M
    field_simp
  have a2 := hl.mul hu a1
  rw [eB] at a2
  have a3 := a2.round hr hu (by linarith) (p3 (by norm_num) (by positivity) (by linarith))
  have xf : Ap u 0 f M f := Ap.exact hf
  have a4 := ((xf.mono hu (by norm_num : 0 ≤ 4 + (0 + 1) + 1) le_rfl).sub a3).round hr hu (by linarith)
    (p3 (by norm_num) (by positivity) (by linarith))
  obtain ⟨y, hy⟩ : ∃ y, y = r.fl (f - r.fl (l' * r.fl (t1 + t2))) := ⟨_, rfl⟩
  rw [← hy] at a4 ⊢
  have b1 : |y - (f - p.l * (t1 + t2))| ≤ 8 * u * (M + 2 * M) :=
    a4.2.trans (mul_le_mul_of_nonneg_right (gamma7 hu hu1) (by linarith))
  have b2 : |f - p.l * (t1 + t2)| ≤ M + 2 * M := a4.1
  have b3 : |(y - T) - (f - p.l * (t1 + t2) - x)| ≤ 24 * u * M + 18 * ε * W := by
    have e : (y - T) - (f - p.l * (t1 + t2) - x) = (y - (f - p.l * (t1 + t2))) - (T - x) := by ring
    rw [e]
    refine (abs_sub _ _).trans (by linarith)
  have hεW : 0 ≤ ε * W := by apply mul_nonneg <;> linarith
  have hεW' : ε * W ≤ 9 / 1000 * W := mul_le_mul_of_nonneg_right hε1 hW
  have huM : u * M ≤ 1 / 100 * M := mul_le_mul_of_nonneg_right hu1 hM
  have b4 : |y - T| ≤ 4 * M + 3 * W := by
    have e : y - T = ((y - T) - (f - p.l * (t1 + t2) - x)) + ((f - p.l * (t1 + t2)) - x) := by ring
    rw [e]
    refine (abs_add_le _ _).trans ((add_le_add b3 (abs_sub _ _)).trans ?_)
    linarith
  have b5 := hr.fl (y - T) (by linarith)
  have b6 : max |y - T| μ ≤ 4 * M + 3 * W := max_le b4 (by linarith)
  have b7 : u * (4 * M + 3 * W) ≤ 4 * u * M + 3 * ε * W := by
    have := mul_le_mul_of_nonneg_right hε hW
    linarith
  have e : r.fl (y - T) - (f - p.l * (t1 + t2) - x) = (r.fl (y - T) - (y - T)) + ((y - T) - (f - p.l * (t1 + t2) - x)) := by ring
  rw [e]
  refine (abs_add_le _ _).trans ((add_le_add (b5.trans (mul_le_mul_of_nonneg_left b6 hu)) b3).trans ?_)
  linarith
end
end TwoLayer
