import Verif.Proofs.IeeeRun
import Verif.Proofs.RoundingState

/-! # Finite results of binary64 arithmetic are the numbers of unbounded arithmetic -/

set_option linter.unusedSimpArgs false
set_option linter.unusedSectionVars false

namespace TwoLayer
namespace F64
variable {py : Bool}

theorem fin_round {s : Bool} {x : ℝ} (h : (round s x : F64 py).Finite) : (round s x : F64 py).value = some (near64 x) := by
  unfold round at h ⊢
  by_cases h0 : x = 0
  · rw [if_pos h0, value_zero, h0, near64_zero]
  rw [if_neg h0] at h ⊢
  by_cases h1 : near64 x = 0
  · rw [if_pos h1, value_zero, h1]
  rw [if_neg h1] at h ⊢
  by_cases h2 : 2 ^ 1024 ≤ |near64 x|
  · rw [if_pos h2] at h; exact absurd h (not_finite_inf _)
  · rw [if_neg h2]; rfl

theorem fin_add {x y : F64 py} {a b : ℝ} (hx : x.value = some a) (hy : y.value = some b) (h : (x + y).Finite) :
    (x + y).value = some (near64 (a + b)) := by
  change (add x y).Finite at h
  show (add x y).value = _
  cases x <;> cases hx <;> cases y <;> cases hy <;> simp only [add] at h ⊢ <;>
    first
      | exact fin_round h
      | (rw [add_zero, near64_zero]; rfl)

theorem fin_sub {x y : F64 py} {a b : ℝ} (hx : x.value = some a) (hy : y.value = some b) (h : (x - y).Finite) :
    (x - y).value = some (near64 (a - b)) := by
  have := fin_add hx (value_neg hy) h
  rwa [← sub_eq_add_neg] at this

theorem fin_mul {x y : F64 py} {a b : ℝ} (hx : x.value = some a) (hy : y.value = some b) (h : (x * y).Finite) :
    (x * y).value = some (near64 (a * b)) := by
  change (mul x y).Finite at h
  show (mul x y).value = _
  cases x <;> cases hx <;> cases y <;> cases hy <;> simp only [mul, value, Option.getD_some] at h ⊢ <;> exact fin_round h

theorem fin_div {x y : F64 py} {a b : ℝ} (hx : x.value = some a) (hy : y.value = some b) (hb : b ≠ 0) (h : (x / y).Finite) :
    (x / y).value = some (near64 (a / b)) := by
  change (div x y).Finite at h
  show (div x y).value = _
  cases x <;> cases hx <;> cases y <;> cases hy <;>
    simp only [div, value, Option.getD_some, Option.some.injEq, hb, if_false] at h ⊢ <;>
    first
      | exact fin_round h
      | exact absurd rfl hb

theorem near64_tiny {x : ℝ} (h : 2 * |x| < 2⁻¹ ^ 1074) : near64 x = 0 := by
  have h1 := near64_nearest x (y := 0) ⟨0, 0, by norm_num, by norm_num, by simp⟩
  rw [sub_zero] at h1
  have h2 : |near64 x| < 2⁻¹ ^ 1074 := by
    refine lt_of_le_of_lt ?_ h
    calc |near64 x| = |x - (x - near64 x)| := by congr 1; ring
      _ ≤ |x| + |x - near64 x| := abs_sub _ _
      _ ≤ 2 * |x| := by linarith
  obtain ⟨k, e, hk, he, hy⟩ := near64_isDouble x
  by_contra hne
  have hk0 : k ≠ 0 := by rintro rfl; apply hne; rw [hy]; simp
  have hk1 : (1 : ℝ) ≤ |(k : ℝ)| := by
    rw [← Int.cast_abs]; exact_mod_cast Int.one_le_abs hk0
  have h3 : (2⁻¹ : ℝ) ^ 1074 ≤ (2 : ℝ) ^ e := by
    calc (2⁻¹ : ℝ) ^ 1074 = (2 : ℝ) ^ (-1074 : ℤ) := by rw [zpow_neg, inv_pow]; rfl
      _ ≤ _ := zpow_le_zpow_right₀ (by norm_num) he
  rw [hy, abs_mul, abs_of_pos (by positivity : (0 : ℝ) < 2 ^ e)] at h2
  have h4 : (2 : ℝ) ^ e ≤ |(k : ℝ)| * 2 ^ e := le_mul_of_one_le_left (by positivity) hk1
  exact absurd (h3.trans h4) (not_le.mpr h2)

theorem near64_exp_huge {x : ℝ} (h : x ≤ -2 ^ 1024) : near64 (Real.exp x) = 0 := by
  apply near64_tiny
  rw [abs_of_pos (Real.exp_pos x)]
  have h0 : (2 : ℝ) ^ 1024 ≤ -x := by linarith only [h]
  have hp : (0 : ℝ) < 2 ^ 1024 := by positivity
  have h1 := Real.quadratic_le_exp_of_nonneg (le_trans hp.le h0)
  have h2 : (2 : ℝ) ^ 2047 ≤ Real.exp (-x) := by
    have h3 : (2 : ℝ) ^ 2048 ≤ (-x) ^ 2 := by
      calc (2 : ℝ) ^ 2048 = (2 ^ 1024) ^ 2 := by rw [← pow_mul]
        _ ≤ _ := by gcongr
    have h4 : (2 : ℝ) ^ 2048 = 2 * 2 ^ 2047 := by rw [← pow_succ']
    rw [h4] at h3
    have h5 := le_trans hp.le h0
    generalize (2 : ℝ) ^ 2047 = z at *
    linarith only [h1, h3, h5]
  rw [Real.exp_neg] at h2
  have h6 : Real.exp x ≤ 2⁻¹ ^ 2047 := by
    rw [inv_pow]
    rw [le_inv_comm₀ (Real.exp_pos x) (by positivity)]
    exact h2
  calc 2 * Real.exp x ≤ 2 * 2⁻¹ ^ 2047 := by gcongr
    _ = 2⁻¹ ^ 2046 := by rw [pow_succ', ← mul_assoc, mul_inv_cancel₀ two_ne_zero, one_mul]
    _ < _ := pow_lt_pow_right_of_lt_one₀ (by norm_num) (by norm_num) (by norm_num)

/-- `exp(x / y)`: an overflow of the quotient to minus infinity does no harm -/
theorem fin_exp_div {x y : F64 py} {a b : ℝ} (hx : x.value = some a) (hy : y.value = some b) (hb : b ≠ 0)
    (h : (Arith.exp (x / y) : F64 py).Finite) :
    (Arith.exp (x / y) : F64 py).value = some (near64 (Real.exp (near64 (a / b)))) := by
  have key : ∃ s, x / y = round s (a / b) := by
    show ∃ s, div x y = _
    cases x <;> cases hx <;> cases y <;> cases hy <;>
      simp only [div, value, Option.getD_some, Option.some.injEq, hb, if_false] <;>
      first
        | exact ⟨_, rfl⟩
        | exact absurd rfl hb
  obtain ⟨s, hs⟩ := key
  rw [hs] at h ⊢
  by_cases hf : (round s (a / b) : F64 py).Finite
  · have hv := fin_round hf
    generalize (round s (a / b) : F64 py) = z at *
    cases z with
    | nan => cases hv
    | inf s => cases hv
    | negZero =>
      have h0 := Option.some.inj hv
      rw [← h0, Real.exp_zero]
      show some 1 = _
      rw [near64_of_isDouble ⟨1, 0, by norm_num, by norm_num, by simp⟩]
    | num x =>
      have h0 := Option.some.inj hv
      rw [← h0]
      exact fin_round h
  · unfold round at h hf ⊢
    by_cases h0 : a / b = 0
    · rw [if_pos h0] at hf; exact absurd ⟨_, value_zero s⟩ hf
    rw [if_neg h0] at h hf ⊢
    by_cases h1 : near64 (a / b) = 0
    · rw [if_pos h1] at hf; exact absurd ⟨_, value_zero _⟩ hf
    rw [if_neg h1] at h hf ⊢
    by_cases h2 : 2 ^ 1024 ≤ |near64 (a / b)|
    · rw [if_pos h2] at h ⊢
      by_cases h3 : a / b < 0
      · have h4 : near64 (a / b) ≤ 0 := by
          have e1 : near64 (a / b) = -near64 (-(a / b)) := by rw [near64_neg, neg_neg]
          have e2 : 0 ≤ near64 (-(a / b)) := by
            have n1 := near64_nearest (-(a / b)) (y := 0) ⟨0, 0, by norm_num, by norm_num, by simp⟩
            rw [sub_zero, abs_of_pos (by linarith : 0 < -(a / b))] at n1
            linarith [(abs_le.mp n1).2]
          linarith
        rw [abs_of_nonpos h4] at h2
        have h5 : near64 (a / b) ≤ -2 ^ 1024 := by linarith only [h2]
        rw [near64_exp_huge h5]
        simp only [h3, decide_true]
        rfl
      · simp only [h3, decide_false] at h
        exact absurd h (not_finite_inf _)
    · rw [if_neg h2] at hf; exact absurd (finite_num _) hf
end F64

namespace TLPar
variable {py : Bool} {p : TLPar}

theorem fin_upper (hC : p.C ≠ 0) {F T TD : ℝ} {dt t td f l a e h c : F64 py} (vdt : dt.value = some p.dt)
    (vt : t.value = some T) (vtd : td.value = some TD) (vf : f.value = some F) (vl : l.value = some p.l)
    (va : a.value = some p.a) (ve : e.value = some p.e) (vh : h.value = some p.h) (vc : c.value = some p.C)
    (hx : (TLM.calcNextTempUpper dt t td f l a e h c).Finite) :
    (TLM.calcNextTempUpper dt t td f l a e h c).value = some (p.fu double F T TD) := by
  have hP := F64.absorbs (py := py)
  obtain ⟨-, h2⟩ := hP.add hx
  obtain ⟨-, h4⟩ := hP.mul h2
  have k := hP.div h4
  obtain ⟨h5, h6⟩ := hP.sub k
  obtain ⟨-, h8⟩ := hP.sub h5
  obtain ⟨h9, h10⟩ := hP.mul h6
  obtain ⟨h14, -⟩ := hP.mul h8
  obtain ⟨-, h16⟩ := hP.sub h14
  have w1 := F64.fin_sub vl (F64.fin_mul va vt h16) h14
  have w3 := F64.fin_sub vf (F64.fin_mul w1 vt h8) h5
  have w4 := F64.fin_mul (F64.fin_mul ve vh h9) (F64.fin_sub vt vtd h10) h6
  exact F64.fin_add vt (F64.fin_mul vdt (F64.fin_div (F64.fin_sub w3 w4 k) vc hC h4) h2) hx

theorem fin_lower (hD : p.D ≠ 0) {T TD : ℝ} {dt t td h c : F64 py} (vdt : dt.value = some p.dt)
    (vt : t.value = some T) (vtd : td.value = some TD) (vh : h.value = some p.h) (vc : c.value = some p.D)
    (hx : (TLM.calcNextTempLower dt td t h c).Finite) :
    (TLM.calcNextTempLower dt td t h c).value = some (p.fd double T TD) := by
  have hP := F64.absorbs (py := py)
  obtain ⟨-, h2⟩ := hP.add hx
  obtain ⟨-, h4⟩ := hP.mul h2
  have k := hP.div h4
  obtain ⟨-, h6⟩ := hP.mul k
  exact F64.fin_add vtd (F64.fin_mul vdt (F64.fin_div (F64.fin_mul vh (F64.fin_sub vt vtd h6) k) vc hD h4) h2) hx

theorem fin_uptake (hdt : p.dt ≠ 0) {T TD T' TD' : ℝ} {dt t td t' td' c d : F64 py} (vdt : dt.value = some p.dt)
    (vt : t.value = some T) (vtd : td.value = some TD) (vt' : t'.value = some T') (vtd' : td'.value = some TD')
    (vc : c.value = some p.C) (vd : d.value = some p.D) (hx : (TLM.calcNextRndt dt td' td d t' t c).Finite) :
    (TLM.calcNextRndt dt td' td d t' t c).value = some (p.fr double T TD T' TD') := by
  have hP := F64.absorbs (py := py)
  obtain ⟨h1, h2⟩ := hP.add hx
  have k1 := hP.div h1
  have k2 := hP.div h2
  obtain ⟨-, h4⟩ := hP.mul k1
  obtain ⟨-, h6⟩ := hP.mul k2
  exact F64.fin_add (F64.fin_div (F64.fin_mul vc (F64.fin_sub vt' vt h4) k1) vdt hdt h1)
    (F64.fin_div (F64.fin_mul vd (F64.fin_sub vtd' vtd h6) k2) vdt hdt h2) hx
end TLPar

section
variable {N : Type} [Fintype N] [DecidableEq N] {py : Bool} {R : Registry N (F64 py)}

/-- a finite value of the run is that of the unbounded run -/
theorem TLM.seq_finite {m : TLM N (F64 py)} {p : TLPar} (hc : m.Coherent R) (hp : m.Phys64 R p) (hC : p.C ≠ 0)
    (hD : p.D ≠ 0) (hdt : p.dt ≠ 0) {F : ℕ → ℝ} {Fs : List (F64 py)}
    {n : ℕ} (hF : ∀ i < n, ∀ x v, Fs[i]? = some x → x.value = some v → v = F i) :
    ∀ {k : ℕ} {x : F64 py × F64 py × F64 py}, k ≤ n → m.eng.seq Fs k = .ok x →
      (x.1.Finite → x.1.value = some (p.fsol double F k).1) ∧
      (x.2.1.Finite → x.2.1.value = some (p.fsol double F k).2.1) ∧
      (x.2.2.Finite → x.2.2.value = some (p.fsol double F k).2.2) := by
  have e1 : m.core.deltaTMag.value = some p.dt := by rw [hc.core.dtMag]; exact hp.dt.magIn
  have e2 : m.lambda0Mag.value = some p.l := by rw [hc.lambda0Mag]; exact hp.lambda0.magIn
  have e3 : m.aMag.value = some p.a := by rw [hc.aMag]; exact hp.a.magIn
  have e4 : m.efficacyMag.value = some p.e := by rw [hc.efficacyMag]; exact hp.efficacy.magIn
  have e5 : m.etaMag.value = some p.h := by rw [hc.etaMag]; exact hp.eta.magIn
  have e6 : m.hcuMag.value = some p.C := by rw [hc.hcuMag]; exact hp.C.magIn
  have e7 : m.hclMag.value = some p.D := by rw [hc.hclMag]; exact hp.D.magIn
  have hP := F64.absorbs (py := py)
  intro k
  induction k with
  | zero =>
    intro x _ hx
    cases hx
    exact ⟨fun _ => F64.value_zero_lit, fun _ => F64.value_zero_lit, fun _ => F64.value_zero_lit⟩
  | succ k ih =>
    intro x hk hx
    obtain ⟨y, f, hy, hf, g1, g2, g3⟩ := TLM.seq_succ hx
    obtain ⟨i1, i2, -⟩ := ih (by omega) hy
    have up : x.1.Finite → x.1.value = some (p.fsol double F (k + 1)).1 := by
      intro h
      rw [g1] at h ⊢
      obtain ⟨-, h1, h2, ⟨v, h3⟩, -⟩ := absorbs_upper hP h
      have hv := hF k hk f v hf h3
      subst hv
      exact TLPar.fin_upper hC e1 (i1 h1) (i2 h2) h3 e2 e3 e4 e5 e6 h
    have lo : x.2.1.Finite → x.2.1.value = some (p.fsol double F (k + 1)).2.1 := by
      intro h
      rw [g2] at h ⊢
      obtain ⟨-, h1, h2, -⟩ := absorbs_lower hP h
      exact TLPar.fin_lower hD e1 (i1 h1) (i2 h2) e5 e7 h
    refine ⟨up, lo, fun h => ?_⟩
    rw [g3] at h ⊢
    obtain ⟨h1, h2, -, h4, h5, -⟩ := absorbs_uptake hP h
    exact TLPar.fin_uptake hdt e1 (i1 h5) (i2 h2) (up h4) (lo h1) e6 e7 h

theorem fin_box {q d dt F t : ℝ} (hd : d ≠ 0) {x q' d' dt' f y : F64 py} (vx : x.value = some t) (vq : q'.value = some q)
    (vd : d'.value = some d) (vdt : dt'.value = some dt) (vf : f.value = some F)
    (h : IRM.calcNextTemp dt' x q' d' f = .ok y) (hy : y.Finite) : y.value = some (fbox double q d dt F t) := by
  have hP := F64.absorbs (py := py)
  have hD : pyDiv (-dt') d' = .ok (-dt' / d') := F64.pyDiv64 vd hd _
  simp only [IRM.calcNextTemp, hD, bind, Except.bind, pure, Except.pure] at h
  cases h
  obtain ⟨h1, h2⟩ := hP.add hy
  obtain ⟨-, h4⟩ := hP.mul h1
  obtain ⟨h5, h6⟩ := hP.mul h2
  have ve := F64.fin_exp_div (F64.value_neg vdt) vd hd h4
  have go : (Arith.ofNat 1 : F64 py).value = some (double.fl 1) := by
    rw [F64.value_ofNat_small (by norm_num), Nat.cast_one]
    show some 1 = some (near64 1)
    rw [near64_one]
  exact F64.fin_add (F64.fin_mul vx ve h1) (F64.fin_mul (F64.fin_mul vf vq h5) (F64.fin_sub go ve h6) h2) hy

theorem Qty.add_mag {α : Type} [Arith α] {R : Registry N α} {a b c : Qty N α} (hu : b.unit = a.unit) (h : a.add R b = .ok c) :
    c.mag = a.mag + b.mag := by
  unfold Qty.add at h
  split at h
  · cases h; simp [Qty.magIn, hu]
  · cases h

/-- the heat uptake with efficacy one -/
theorem IRM.uptake_one {α : Type} [Arith α] {R : Registry N α} {m : IRM N α} {t1 t2 f e x : α} (hu : m.q2.unit = m.q1.unit)
    (he : Arith.eq e (Arith.ofNat 1) = true) (h : m.calcNextRndt R t1 t2 f e = .ok x) :
    ∃ l, pyDiv (Arith.ofNat 1) (m.q1.mag + m.q2.mag) = .ok l ∧ x = f - l * (t1 + t2) - Arith.ofNat 0 := by
  unfold IRM.calcNextRndt at h
  cases hp : m.getTwoLayerParameters R with
  | error e => rw [hp] at h; cases h
  | ok p =>
    simp only [hp, bind, Except.bind, pure, Except.pure, he, if_true] at h
    cases h
    refine ⟨p.lambda0.mag, ?_, rfl⟩
    unfold IRM.getTwoLayerParameters at hp
    cases hs : m.q1.add R m.q2 with
    | error e => rw [hs] at hp; cases hp
    | ok s =>
      rw [← Qty.add_mag hu hs]
      simp only [hs, bind, Except.bind, pure, Except.pure] at hp
      cases hl : Qty.ndiv (Arith.ofNat 1) s with
      | error e => rw [hl] at hp; cases hp
      | ok l =>
        have : p.lambda0 = l := by
          simp only [hl] at hp
          repeat' split at hp
          all_goals first | (cases hp; done) | (cases hp; rfl)
        rw [this]
        unfold Qty.ndiv at hl
        cases hd : pyDiv (Arith.ofNat 1) s.mag with
        | error e => rw [hd] at hl; cases hl
        | ok z => rw [hd] at hl; cases hl; rfl

theorem near64_ne_zero {s : ℝ} (h : 2⁻¹ ^ 1022 ≤ s) : near64 s ≠ 0 := by
  have h0 : (0 : ℝ) < s := lt_of_lt_of_le (by positivity) h
  have := ((double_accurate s).near (by norm_num) h0 h le_rfl).1
  have h1 : s / 2 ≤ near64 s := this
  intro h2
  linarith

theorem IRM.fin_uptake {m : IRM N (F64 py)} {p : IRPar} (hp : m.Phys64 R p) (hpl : m.PlainUnits64 R)
    (hq : 2⁻¹ ^ 1022 ≤ p.q1 + p.q2) (hq' : p.q1 + p.q2 ≤ 2 ^ 1023) {f t1 t2 : ℝ} {x1 x2 y z : F64 py}
    (v1 : x1.value = some t1) (v2 : x2.value = some t2) (vf : y.value = some f)
    (h : m.calcNextRndt R x1 x2 y (F64.num 1) = .ok z) (hz : z.Finite) :
    z.value = some (double.fl (double.fl (f - double.fl (p.fl0 double * double.fl (t1 + t2))))) := by
  have hP := F64.absorbs (py := py)
  have he : Arith.eq (F64.num 1 : F64 py) (Arith.ofNat 1) = true := by
    rw [F64.eq_value rfl (F64.value_ofNat_small (n := 1) (by norm_num))]; simp
  obtain ⟨l, hl, rfl⟩ := IRM.uptake_one (hpl.q2.trans hpl.q1.symm) he h
  have e1 : m.q1.mag.value = some p.q1 := by have := hp.q1.magIn; rwa [Qty.magIn, if_pos hpl.q1] at this
  have e2 : m.q2.mag.value = some p.q2 := by have := hp.q2.magIn; rwa [Qty.magIn, if_pos hpl.q2] at this
  have vs := F64.value_add e1 e2 (by rwa [abs_of_pos (lt_of_lt_of_le (by positivity) hq)])
  have hl' : l = Arith.ofNat 1 / (m.q1.mag + m.q2.mag) := by
    rw [F64.pyDiv64 vs (near64_ne_zero hq)] at hl
    cases hl; rfl
  subst hl'
  have go : (Arith.ofNat 1 : F64 py).value = some (double.fl 1) := by
    rw [F64.value_ofNat_small (by norm_num), Nat.cast_one]
    show some 1 = some (near64 1)
    rw [near64_one]
  obtain ⟨h1, -⟩ := hP.sub hz
  obtain ⟨-, h3⟩ := hP.sub h1
  obtain ⟨h4, h5⟩ := hP.mul h3
  have vl := F64.fin_div go vs (near64_ne_zero hq) h4
  have w := F64.fin_sub (F64.fin_sub vf (F64.fin_mul vl (F64.fin_add v1 v2 h5) h3) h1)
    (F64.value_ofNat_small (py := py) (n := 0) (by norm_num)) hz
  rw [Nat.cast_zero, sub_zero] at w
  exact w

/-- a finite value of the run is that of the unbounded run -/
theorem IRM.seq_finite {m : IRM N (F64 py)} {p : IRPar} (hc : m.Coherent R) (hp : m.Phys64 R p) (h1 : p.d1 ≠ 0)
    (h2 : p.d2 ≠ 0) {F : ℕ → ℝ} {Fs : List (F64 py)} {n : ℕ} (hF : ∀ i < n, ∀ x v, Fs[i]? = some x → x.value = some v → v = F i) :
    ∀ {k : ℕ} {x : F64 py × F64 py × F64 py}, k ≤ n → (m.eng R).seq Fs k = .ok x →
      (x.1.Finite → x.1.value = some (fboxes double p.q1 p.d1 p.dt F k)) ∧
      (x.2.1.Finite → x.2.1.value = some (fboxes double p.q2 p.d2 p.dt F k)) ∧
      (m.PlainUnits64 R → 2⁻¹ ^ 1022 ≤ p.q1 + p.q2 → p.q1 + p.q2 ≤ 2 ^ 1023 → x.2.2.Finite →
        x.2.2.value = some (p.fU double F k)) := by
  have e1 : m.core.deltaTMag.value = some p.dt := by rw [hc.core.dtMag]; exact hp.dt.magIn
  have e2 : m.q1Mag.value = some p.q1 := by rw [hc.q1Mag]; exact hp.q1.magIn
  have e3 : m.q2Mag.value = some p.q2 := by rw [hc.q2Mag]; exact hp.q2.magIn
  have e4 : m.d1Mag.value = some p.d1 := by rw [hc.d1Mag]; exact hp.d1.magIn
  have e5 : m.d2Mag.value = some p.d2 := by rw [hc.d2Mag]; exact hp.d2.magIn
  have hP := F64.absorbs (py := py)
  intro k
  induction k with
  | zero =>
    intro x _ hx
    cases hx
    exact ⟨fun _ => F64.value_zero_lit, fun _ => F64.value_zero_lit, fun _ _ _ _ => F64.value_zero_lit⟩
  | succ k ih =>
    intro x hk hx
    obtain ⟨y, f, hy, hf, g1, g2, g3⟩ := IRM.seq_succ hx
    obtain ⟨i1, i2, -⟩ := ih (by omega) hy
    refine ⟨fun h => ?_, fun h => ?_, fun hpl hq hq' h => ?_⟩
    · obtain ⟨k1, -, ⟨v, k3⟩⟩ := absorbs_box hP g1 h
      have hv := hF k hk f v hf k3
      subst hv
      exact fin_box h1 (i1 k1) e2 e4 e1 k3 g1 h
    · obtain ⟨k1, -, ⟨v, k3⟩⟩ := absorbs_box hP g2 h
      have hv := hF k hk f v hf k3
      subst hv
      exact fin_box h2 (i2 k1) e3 e5 e1 k3 g2 h
    · have e6 : m.efficacyMag = F64.num 1 := by rw [hc.efficacyMag, hpl.efficacy]; simp [Qty.magIn]
      rw [e6] at g3
      obtain ⟨k1, k2, ⟨v, k3⟩⟩ := absorbs_ir_uptake hP g3 h
      have hv := hF k hk f v hf k3
      subst hv
      exact IRM.fin_uptake hp hpl hq hq' (i1 k1) (i2 k2) k3 g3 h
end

section
variable {N : Type} [Fintype N] [DecidableEq N] {R : Registry N (FR double)}

/-- the heat uptake of the unbounded run -/
theorem IRM.fuptake {m : IRM N (FR double)} {p : IRPar} (hp : m.FPhys R p) (hpl : m.PlainUnits R)
    (hq : 2⁻¹ ^ 1022 ≤ p.q1 + p.q2) {f t1 t2 : ℝ} {z : FR double}
    (h : m.calcNextRndt R (FR.fin t1) (FR.fin t2) (FR.fin f) (FR.fin 1) = .ok z) :
    z = FR.fin (double.fl (double.fl (f - double.fl (p.fl0 double * double.fl (t1 + t2))))) := by
  have hz : double.fl 0 = 0 := near64_zero
  have ho : double.fl 1 = 1 := near64_one
  have he : Arith.eq (FR.fin 1 : FR double) (Arith.ofNat 1) = true := by
    rw [FR.ofNat_eq, Nat.cast_one, ho, FR.eq_fin]; simp
  obtain ⟨l, hl, rfl⟩ := IRM.uptake_one (hpl.q2.trans hpl.q1.symm) he h
  have e1 : m.q1.mag = FR.fin p.q1 := by have := hp.q1.magIn; rwa [Qty.magIn, if_pos hpl.q1] at this
  have e2 : m.q2.mag = FR.fin p.q2 := by have := hp.q2.magIn; rwa [Qty.magIn, if_pos hpl.q2] at this
  have hne : double.fl (p.q1 + p.q2) ≠ 0 := near64_ne_zero hq
  rw [e1, e2, FR.fin_add, FR.ofNat_eq, Nat.cast_one, FR.pyDiv_fin hz hne] at hl
  cases hl
  rw [FR.fin_add, FR.fin_mul, FR.fin_sub, FR.ofNat_eq, Nat.cast_zero, hz, FR.fin_sub, sub_zero]
  rfl
end
end TwoLayer
