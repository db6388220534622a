import Verif.Proofs.RoundingUptake
import Verif.Props.RoundingGeo

/-!
# C67: heat uptake of the impulse response model with an efficacy other than 1

`FR r`, `Rounding.Accurate`, `double`, `IRM.Plain`, `IRPar.extra` and the ranges are in `Spec/Rounding.lean`; the exact
equations `IREq` in `Spec/Equations.lean`.
-/

set_option linter.unusedSimpArgs false
set_option linter.unusedSectionVars false

namespace TwoLayer
section
variable {N : Type} [Fintype N] [DecidableEq N] {r : Rounding} {R : Registry N (FR r)}

set_option maxHeartbeats 1000000 in
/-- **C67** (impulse response, efficacy other than 1).  Each step converts the parameters to those of the two-layer model and
computes the helper parameters of Geoffroy et al.; with parameters in the units of the model and every operation rounded, the
run succeeds and the heat uptake is within a multiple of `u` that does not depend on the number of steps.  Digits are lost
if the two timescales nearly coincide (`κ`) or the upper layer holds much more heat than the lower one. -/
theorem C67_impulse_response_efficacy {u μ Ω M : ℝ} (hr : r.Accurate u μ Ω) (hu : 0 ≤ u) (ho : r.fl 1 = 1) {m : IRM N (FR r)}
    (hm : IRM.Reachable R m) {p : IRPar} (hp : m.Plain R p) (hdt' : IsFNum R m.core.deltaT R.yr p.dt) (hok : p.Ok) (he1 : p.e ≠ 1)
    (hdt : 0 < p.dt) (hM : 0 ≤ M) (hin : p.InRange M μ Ω) (hci : p.ConvNormal μ Ω)
    (hg : ∀ x ∈ Geo.sizes (p.C / (1000 * 4181)) (p.D / (1000 * 4181)) p.l p.e p.h, μ ≤ x ∧ 2 * x ≤ Ω)
    (hx : ∀ x ∈ p.extraSizes M, μ ≤ x ∧ 8 * x ≤ Ω) {κ γ : ℝ} (hκ : κ = (p.d2 + p.d1) / (p.d2 - p.d1))
    (hγ : γ = 1 + 2 * p.C / (p.e * p.D)) (hs : 700000 * u * γ * κ ^ 2 ≤ 1) (hs' : 32 * u * (1 + p.d2 / p.dt) ≤ 1)
    {d : DArg N (FR r)} {n : ℕ} (hn : n ≠ 0) {F : ℕ → ℝ} (hd : IsFForcing R d n F) (hF : ∀ i < n, |F i| ≤ M) {T1 T2 U : ℕ → ℝ}
    (hex : IREq p 1 n F T1 T2 U) :
    ∃ T1' T2' T' U', IRM.FProduces R m d n T1' T2' T' (fseries n U') ∧ ∀ i < n,
      |U' i - U i| ≤ u * M * (60 + 32 * (p.d2 / p.dt)) + u * p.extra M * (32 * (1 + p.d2 / p.dt) + 132300 * γ * κ ^ 2) := by
  have hz := hr.zero
  have hc := IRM.Reachable.coherent R hm
  have hd2 := hok.d1.trans hok.d2
  have hq1 := hok.q1; have hq2 := hok.q2
  have hμ := hin.1
  have hph := hp.fphys hdt'
  have hl : 0 < p.l := Geo.invL_pos hok.q1 hok.q2
  have hh : 0 < p.h := Geo.invH_pos hok.q1 hok.q2 hok.d1 hok.d2 hok.e
  have hC : 0 < p.C := Geo.invC_pos hok.q1 hok.q2 hok.d1 hok.d2
  have hD : 0 < p.D := Geo.invD_pos hok.q1 hok.q2 hok.d1 hok.d2 hok.e
  have he := hok.e
  have φ1 : p.phi1 < 0 := Geo.phi1_neg hC hD hl he hh
  have φ2 : 0 < p.phi2 := Geo.phi2_pos hC hD hl he hh
  have hlq : p.l * (p.q1 + p.q2) = 1 := by
    show 1 / (p.q1 + p.q2) * (p.q1 + p.q2) = 1
    field_simp
  have hW : p.extra M = |p.e - 1| * p.h * (1 + (p.phi2 - p.phi1)) * (p.q1 + p.q2) * M := by
    unfold IRPar.extra
    have : p.h / p.l = p.h * (p.q1 + p.q2) := by rw [div_eq_iff hl.ne', mul_assoc, mul_comm (p.q1 + p.q2), hlq, mul_one]
    rw [this]; ring
  have hW0 : 0 ≤ p.extra M := by
    rw [hW]
    have : 0 < 1 + (p.phi2 - p.phi1) := by linarith
    positivity
  have hxW : 8 * p.extra M ≤ Ω := (hx _ (by simp [IRPar.extraSizes])).2
  obtain ⟨hu1, huε, hε1, l', T, Al, hG, hT⟩ := IRM.fterm (R := R) hr hu ho hp hok he1 hM (rfl : 35 * u * (1 + 2 * p.C / (p.e * p.D)) = _)
    hκ rfl (by rw [← hγ]; linarith) hW hci hg hx
  obtain ⟨ε, hε⟩ : ∃ ε, ε = 180 * (35 * u * (1 + 2 * p.C / (p.e * p.D))) * κ ^ 2 := ⟨_, rfl⟩
  rw [← hε] at huε hε1 hT
  have hεγ : ε = 6300 * u * γ * κ ^ 2 := by rw [hε, ← hγ]; ring
  have hpr := IRM.fproduces_of hz hc hph hok.d1.ne' hd2.ne' hG hn hd
  refine ⟨_, _, _, _, hpr, fun i hi => ?_⟩
  have x0 : 0 < p.d2 / p.dt := div_pos hd2 hdt
  have hγ0 : 0 ≤ γ := by rw [hγ]; positivity
  cases i with
  | zero =>
    rw [hex.uptake.1 hi]
    simp only [IRPar.fU', sub_zero, abs_zero]
    positivity
  | succ i =>
    have hUi := hex.uptake.2 i hi
    have hκ1 : 32 * u * (1 + p.d1 / p.dt) ≤ 1 := by
      refine le_trans ?_ hs'
      have := hok.d2
      gcongr
    have hin' := hin
    obtain ⟨-, hΩ, hin⟩ := hin
    simp only [List.forall_mem_cons, List.not_mem_nil, IsEmpty.forall_iff, forall_const, and_true] at hin
    obtain ⟨⟨m1, o1⟩, ⟨m2, o2⟩, ⟨m3, o3⟩, ⟨m4, o4⟩, ⟨m5, o5⟩, ⟨m6, o6⟩⟩ := hin
    have x1 : 0 < p.dt / p.d1 := div_pos hdt hok.d1
    have x2 : 0 < p.dt / p.d2 := div_pos hdt hd2
    obtain ⟨-, a1, a2⟩ := fboxes_err hr hu hu1 hμ hΩ hok.q1 hok.d1 hdt m4 (by linarith) m1 o1 hM hκ1 hF hex.box1 i (by omega)
    obtain ⟨-, b1, b2⟩ := fboxes_err hr hu hu1 hμ hΩ hok.q2 hd2 hdt m5 (by linarith) m2 o2 hM hs' hF hex.box2 i (by omega)
    show |r.fl (r.fl (F i - r.fl (l' * r.fl (fboxes r p.q1 p.d1 p.dt F i + fboxes r p.q2 p.d2 p.dt F i))) -
      T (fboxes r p.q1 p.d1 p.dt F i) (fboxes r p.q2 p.d2 p.dt F i)) - _| ≤ _
    obtain ⟨t1, ht1⟩ : ∃ t, t = fboxes r p.q1 p.d1 p.dt F i := ⟨_, rfl⟩
    obtain ⟨t2, ht2⟩ : ∃ t, t = fboxes r p.q2 p.d2 p.dt F i := ⟨_, rfl⟩
    rw [← ht1] at a1 a2 ⊢
    rw [← ht2] at b1 b2 ⊢
    obtain ⟨c1, c2⟩ := hT t1 t2 a2 b2
    have e := IRPar.fstep_err hr hu hu1 hok hM hW0 huε hε1 hin' hxW Al (hF i (by omega)) a2 b2 c1 c2
    obtain ⟨y, hy⟩ : ∃ y, y = r.fl (r.fl (F i - r.fl (l' * r.fl (t1 + t2))) - T t1 t2) := ⟨_, rfl⟩
    rw [← hy] at e ⊢
    rw [hUi]
    have key : y - (F i - 1 * p.l * (T1 i + T2 i) - (p.e - 1) * p.h * ((T1 i + T2 i) - (p.phi1 * T1 i + p.phi2 * T2 i))) =
        (y - (F i - p.l * (t1 + t2) - (p.e - 1) * p.h * ((t1 + t2) - (p.phi1 * t1 + p.phi2 * t2)))) -
        (p.l + (p.e - 1) * p.h * (1 - p.phi1)) * (t1 - T1 i) - (p.l + (p.e - 1) * p.h * (1 - p.phi2)) * (t2 - T2 i) := by ring
    rw [key]
    have hd12 : p.d1 / p.dt ≤ p.d2 / p.dt := by have := hok.d2; gcongr
    have hK1 : 0 ≤ p.q1 * M := by positivity
    obtain ⟨E, hE⟩ : ∃ E, E = 32 * u * (1 + p.d2 / p.dt) := ⟨_, rfl⟩
    have hE0 : 0 ≤ E := by rw [hE]; positivity
    have hA : |t1 - T1 i| ≤ E * (p.q1 * M) := by
      refine a1.trans ?_
      rw [hE]
      calc 32 * u * (p.q1 * M) * (1 + p.d1 / p.dt) ≤ 32 * u * (p.q1 * M) * (1 + p.d2 / p.dt) := by gcongr
        _ = _ := by ring
    have hB : |t2 - T2 i| ≤ E * (p.q2 * M) := b1.trans (le_of_eq (by rw [hE]; ring))
    obtain ⟨K, hK⟩ : ∃ K, K = |p.e - 1| * p.h * (1 + (p.phi2 - p.phi1)) := ⟨_, rfl⟩
    have hcoef : ∀ {φ : ℝ}, |1 - φ| ≤ 1 + (p.phi2 - p.phi1) → |p.l + (p.e - 1) * p.h * (1 - φ)| ≤ p.l + K := by
      intro φ hφ
      refine (abs_add_le _ _).trans ?_
      rw [abs_of_pos hl, abs_mul, abs_mul, abs_of_pos hh, hK]
      gcongr
    have k1 := hcoef (φ := p.phi1) (by rw [abs_le]; constructor <;> linarith)
    have k2 := hcoef (φ := p.phi2) (by rw [abs_le]; constructor <;> linarith)
    have hKW : K * ((p.q1 + p.q2) * M) = p.extra M := by rw [hK, hW]; ring
    have hK0 : 0 ≤ K := by
      rw [hK]
      have : 0 < 1 + (p.phi2 - p.phi1) := by linarith
      positivity
    calc _ ≤ (28 * u * M + 21 * ε * p.extra M) + (p.l + K) * (E * (p.q1 * M)) + (p.l + K) * (E * (p.q2 * M)) := by
          refine (abs_sub _ _).trans (add_le_add ((abs_sub _ _).trans (add_le_add e ?_)) ?_)
          · rw [abs_mul]; exact mul_le_mul k1 hA (abs_nonneg _) (by linarith)
          · rw [abs_mul]; exact mul_le_mul k2 hB (abs_nonneg _) (by linarith)
      _ = 28 * u * M + 21 * ε * p.extra M + E * (p.l * (p.q1 + p.q2) * M + K * ((p.q1 + p.q2) * M)) := by ring
      _ = _ := by rw [hlq, hKW, hE, hεγ]; ring
end

/-! ## `ImpulseResponseModel(efficacy=e)` in double precision -/

/-- the parameters that `ImpulseResponseModel(efficacy=e)` holds in double precision -/
noncomputable def IRPar.withEfficacy (e : ℝ) : IRPar := { IRPar.defaultD with e }

theorem IRPar.Ok.b_sqrt {p : IRPar} (hp : p.Ok) : Geo.b p.C p.D p.l p.e p.h = 1 / p.d1 + 1 / p.d2 ∧
    √(Geo.delta p.C p.D p.l p.e p.h) = 1 / p.d1 - 1 / p.d2 := by
  have hd2 := hp.d1.trans hp.d2
  have hd1 := hp.d1; have hq1 := hp.q1; have hq2 := hp.q2
  have hl : 0 < p.l := Geo.invL_pos hp.q1 hp.q2
  have hh : 0 < p.h := Geo.invH_pos hp.q1 hp.q2 hp.d1 hp.d2 hp.e
  have hC : 0 < p.C := Geo.invC_pos hp.q1 hp.q2 hp.d1 hp.d2
  have hD : 0 < p.D := Geo.invD_pos hp.q1 hp.q2 hp.d1 hp.d2 hp.e
  obtain ⟨g1, g2, -, -⟩ := Geo.round_trip_ir hp.q1 hp.q2 hp.d1 hp.d2 hp.e
  have g1 : p.C * p.D / (2 * p.l * p.h) * (Geo.b p.C p.D p.l p.e p.h - √(Geo.delta p.C p.D p.l p.e p.h)) = p.d1 := g1
  have g2 : p.C * p.D / (2 * p.l * p.h) * (Geo.b p.C p.D p.l p.e p.h + √(Geo.delta p.C p.D p.l p.e p.h)) = p.d2 := g2
  have hP : p.C * p.D / (2 * p.l * p.h) = p.d1 * p.d2 / 2 := by
    have hden : 0 < p.d1 * (p.l * p.q2) + p.d2 * (p.l * p.q1) := by positivity
    have h1 : p.h = p.D / (p.d1 * (p.l * p.q2) + p.d2 * (p.l * p.q1)) := rfl
    have h2 : p.C = p.d1 * p.d2 / (p.q1 * p.d2 + p.q2 * p.d1) := rfl
    rw [h1, h2]
    field_simp
    ring
  rw [hP] at g1 g2
  constructor
  · field_simp; linarith
  · field_simp; linarith

theorem IRPar.withEfficacy_bounds {e : ℝ} (h1 : 1 / 2 ≤ e) (h2 : e ≤ 2) :
    (IRPar.withEfficacy e).Ok ∧ Btw (IRPar.withEfficacy e).q1 0.299 0.301 ∧ Btw (IRPar.withEfficacy e).q2 0.399 0.401 ∧
    Btw (IRPar.withEfficacy e).l 1.4 1.45 ∧ Btw (IRPar.withEfficacy e).C 25 30 ∧ Btw (IRPar.withEfficacy e).D 135 700 ∧
    Btw (IRPar.withEfficacy e).h 0.6 5 := by
  obtain ⟨⟨a1, a2⟩, ⟨b1, b2⟩, -⟩ := defaultD_bounds
  have hok : (IRPar.withEfficacy e).Ok := ⟨defaultD_ok.q1, defaultD_ok.q2, defaultD_ok.d1, defaultD_ok.d2, by show 0 < e; linarith⟩
  have hl : (withEfficacy e).l = 1 / ((withEfficacy e).q1 + (withEfficacy e).q2) := rfl
  have hC : (withEfficacy e).C = 9 * 400 / ((withEfficacy e).q1 * 400 + (withEfficacy e).q2 * 9) := rfl
  have hDX : (withEfficacy e).D = ((withEfficacy e).l * (9 * ((withEfficacy e).l * (withEfficacy e).q1) +
    400 * ((withEfficacy e).l * (withEfficacy e).q2)) - (withEfficacy e).C) / e := rfl
  have hh : (withEfficacy e).h = (withEfficacy e).D / (9 * ((withEfficacy e).l * (withEfficacy e).q2) +
    400 * ((withEfficacy e).l * (withEfficacy e).q1)) := rfl
  have eq1 : (withEfficacy e).q1 = defaultD.q1 := rfl
  have eq2 : (withEfficacy e).q2 = defaultD.q2 := rfl
  rw [← eq1] at a1 a2
  rw [← eq2] at b1 b2
  refine ⟨hok, ?_⟩
  clear hok eq1 eq2
  generalize (withEfficacy e).q1 = q1 at *
  generalize (withEfficacy e).q2 = q2 at *
  generalize (withEfficacy e).l = l at *
  generalize (withEfficacy e).C = C at *
  generalize (withEfficacy e).D = D at *
  generalize (withEfficacy e).h = h at *
  norm_num only at a1 a2 b1 b2
  have hs : 0 < q1 + q2 := by linarith
  have l1 : 1.4 ≤ l := by rw [hl, le_div_iff₀ hs]; norm_num; linarith
  have l2 : l ≤ 1.45 := by rw [hl, div_le_iff₀ hs]; norm_num; linarith
  have p1 : 0.4 ≤ l * q1 := by norm_num at *; nlinarith
  have p2 : l * q1 ≤ 0.45 := by norm_num at *; nlinarith
  have p3 : 0.55 ≤ l * q2 := by norm_num at *; nlinarith
  have p4 : l * q2 ≤ 0.6 := by norm_num at *; nlinarith
  have c0 : 0 < q1 * 400 + q2 * 9 := by linarith
  have c1 : 25 ≤ C := by rw [hC, le_div_iff₀ c0]; linarith
  have c2 : C ≤ 30 := by rw [hC, div_le_iff₀ c0]; linarith
  have x1 : 220 ≤ 9 * (l * q1) + 400 * (l * q2) := by norm_num at *; linarith
  have x2 : 9 * (l * q1) + 400 * (l * q2) ≤ 250 := by norm_num at *; linarith
  have X1 : 308 ≤ l * (9 * (l * q1) + 400 * (l * q2)) := by norm_num at *; nlinarith
  have X2 : l * (9 * (l * q1) + 400 * (l * q2)) ≤ 370 := by norm_num at *; nlinarith
  have he : 0 < e := by linarith
  have D1 : 135 ≤ D := by rw [hDX, le_div_iff₀ he]; linarith
  have D2 : D ≤ 700 := by rw [hDX, div_le_iff₀ he]; linarith
  have n1 : 160 ≤ 9 * (l * q2) + 400 * (l * q1) := by norm_num at *; linarith
  have n2 : 9 * (l * q2) + 400 * (l * q1) ≤ 200 := by norm_num at *; linarith
  have g1 : 0.6 ≤ h := by rw [hh, le_div_iff₀ (by linarith)]; norm_num at *; linarith
  have g2 : h ≤ 5 := by rw [hh, div_le_iff₀ (by linarith)]; linarith
  norm_num at *
  refine ⟨⟨?_, ?_, ?_⟩, ⟨?_, ?_, ?_⟩, ⟨?_, ?_, ?_⟩, ⟨?_, ?_, ?_⟩, ⟨?_, ?_, ?_⟩, ⟨?_, ?_, ?_⟩⟩ <;> linarith

theorem Btw.okK {x a b : ℝ} (h : Btw x a b) (ha : 10⁻¹ ^ 60 ≤ a) (hb : b ≤ 10 ^ 60) {k : ℝ} (hk : k ≤ 64) :
    (2⁻¹ : ℝ) ^ 1022 ≤ x ∧ k * x ≤ 10 ^ 62 := by
  have := mul_le_mul_of_nonneg_right hk h.pos.le
  exact ⟨(h.ok ha hb).1, by linarith [h.2.2]⟩

syntax "btw" : tactic
macro_rules | `(tactic| btw) => `(tactic| first
  | assumption
  | (apply Btw.mul; (focus btw); (focus btw))
  | (apply Btw.div; (focus btw); (focus btw))
  | (apply Btw.add; (focus btw); (focus btw))
  | (apply Btw.lit; (focus norm_num); done))

/-- in range, by interval arithmetic -/
macro "btwr" : tactic => `(tactic| (apply Btw.okK; (focus btw); all_goals norm_num))

set_option maxHeartbeats 4000000 in
theorem IRPar.withEfficacy_ranges {e : ℝ} (h1 : 1 / 2 ≤ e) (h2 : e ≤ 2) (h3 : 1 / 10 ^ 6 ≤ |e - 1|) :
    (IRPar.withEfficacy e).InRange 100 (2⁻¹ ^ 1022) (10 ^ 62) ∧ (IRPar.withEfficacy e).ConvNormal (2⁻¹ ^ 1022) (10 ^ 62) ∧
    (∀ x ∈ Geo.sizes ((IRPar.withEfficacy e).C / (1000 * 4181)) ((IRPar.withEfficacy e).D / (1000 * 4181)) (IRPar.withEfficacy e).l
      (IRPar.withEfficacy e).e (IRPar.withEfficacy e).h, (2⁻¹ : ℝ) ^ 1022 ≤ x ∧ 2 * x ≤ 10 ^ 62) ∧
    (∀ x ∈ (IRPar.withEfficacy e).extraSizes 100, (2⁻¹ : ℝ) ^ 1022 ≤ x ∧ 8 * x ≤ 10 ^ 62) ∧
    1 + 2 * (IRPar.withEfficacy e).C / ((IRPar.withEfficacy e).e * (IRPar.withEfficacy e).D) ≤ 2 ∧
    (IRPar.withEfficacy e).extra 100 ≤ 10 ^ 4 := by
  obtain ⟨hok, bq1, bq2, bl, bC, bD, bh⟩ := withEfficacy_bounds h1 h2
  obtain ⟨b1, b2⟩ := hok.b_sqrt
  have hC := bC.pos
  have hD := bD.pos
  have hl := bl.pos
  have hh := bh.pos
  have φs : (withEfficacy e).phi2 - (withEfficacy e).phi1 = (withEfficacy e).C *
      √(Geo.delta (withEfficacy e).C (withEfficacy e).D (withEfficacy e).l (withEfficacy e).e (withEfficacy e).h) /
      ((withEfficacy e).e * (withEfficacy e).h) := Geo.phi_sub hC hD hl hok.e hh
  rw [b2] at φs
  have bdt : Btw (withEfficacy e).dt 0.082 0.085 := ⟨by norm_num, defaultD_bounds.2.2.1, defaultD_bounds.2.2.2⟩
  have ed1 : (withEfficacy e).d1 = 9 := rfl
  have ed2 : (withEfficacy e).d2 = 400 := rfl
  have ee : (withEfficacy e).e = e := rfl
  have be : Btw e (1 / 2) 2 := ⟨by norm_num, h1, h2⟩
  have be1 : Btw |e - 1| (1 / 10 ^ 6) 1 := ⟨by norm_num, h3, by rw [abs_le]; constructor <;> linarith⟩
  have bb : Btw (1 / 9 + 1 / 400 : ℝ) (1 / 9 + 1 / 400) (1 / 9 + 1 / 400) := .lit (by norm_num)
  have bs : Btw (1 / 9 - 1 / 400 : ℝ) (1 / 9 - 1 / 400) (1 / 9 - 1 / 400) := .lit (by norm_num)
  have bsq : Btw ((1 / 9 + 1 / 400 : ℝ) ^ 2) ((1 / 9 + 1 / 400) ^ 2) ((1 / 9 + 1 / 400) ^ 2) := .lit (by norm_num)
  have eC : (withEfficacy e).C / (1000 * 4181) * 4181 * 1000 = (withEfficacy e).C := by ring
  have eD : (withEfficacy e).D / (1000 * 4181) * 4181 * 1000 = (withEfficacy e).D := by ring
  rw [ed1, ed2] at b1 b2 φs
  rw [ee] at b1 b2 φs
  unfold InRange ConvNormal Geo.sizes extraSizes extra
  simp only [eC, eD, ee, b1, b2, φs, ed1, ed2, List.forall_mem_cons, List.not_mem_nil, IsEmpty.forall_iff, forall_const, and_true]
  generalize (withEfficacy e).q1 = q1 at *
  generalize (withEfficacy e).q2 = q2 at *
  generalize (withEfficacy e).l = l at *
  generalize (withEfficacy e).C = C at *
  generalize (withEfficacy e).D = D at *
  generalize (withEfficacy e).h = h at *
  generalize (withEfficacy e).dt = dt at *
  clear hok b1 b2 φs eC eD ed1 ed2 ee
  refine ⟨⟨?_, ?_, ?_⟩, ?_, ?_, ?_, ?_, ?_⟩
  · exact small_normal.trans (by norm_num)
  · norm_num
  · refine ⟨?_, ?_, ?_, ?_, ?_, ?_⟩ <;> btwr
  · refine ⟨?_, ?_, ?_, ?_, ?_, ?_, ?_, ?_, ?_, ?_, ?_, ?_, ?_, ?_, ?_, ?_, ?_, ?_, ?_, ?_, ?_, ?_, ?_, ?_, ?_⟩ <;> btwr
  · refine ⟨?_, ?_, ?_, ?_, ?_, ?_, ?_, ?_, ?_, ?_, ?_, ?_, ?_, ?_, ?_, ?_, ?_, ?_, ?_, ?_, ?_, ?_, ?_, ?_, ?_, ?_, ?_, ?_, ?_, ?_, ?_⟩ <;> btwr
  · refine ⟨?_, ?_, ?_, ?_, ?_, ?_, ?_⟩ <;> btwr
  · have := (((Btw.lit two_pos).mul bC).div (be.mul bD)).2.2
    norm_num at this ⊢
    linarith
  · refine le_trans (Btw.mul (.mul (.mul be1 (bh.div bl)) (.add (.lit one_pos) ((bC.mul bs).div (be.mul bh)))) (.lit (by norm_num : (0 : ℝ) < 100))).2.2 ?_
    norm_num

theorem U0.regD_efficacy_ir {e : ℝ} : ∃ m, IRM.init U0.regD { IRM.defaultArgs U0.regD with efficacy := .qty ⟨FR.fin e, U0.regD.one⟩ } = .ok m ∧
    m.Plain U0.regD (IRPar.withEfficacy e) ∧ IsFNum U0.regD m.core.deltaT U0.regD.yr (IRPar.withEfficacy e).dt := by
  have e1 : (Arith.dec 3 1 : FR double) = FR.fin (double.fl 0.3) := by
    simp only [FR.dec_eq]
    have e : ((3 : ℕ) : ℝ) / 10 ^ 1 = 0.3 := by norm_num
    rw [e]
  have e2 : (Arith.dec 4 1 : FR double) = FR.fin (double.fl 0.4) := by
    simp only [FR.dec_eq]
    have e : ((4 : ℕ) : ℝ) / 10 ^ 1 = 0.4 := by norm_num
    rw [e]
  have e3 : (Arith.dec 90 1 : FR double) = FR.fin 9 := by
    simp only [FR.dec_eq]
    have e : ((90 : ℕ) : ℝ) / 10 ^ 1 = ((9 : ℕ) : ℝ) := by norm_num
    rw [e, double_int (by norm_num)]; norm_num
  have e4 : (Arith.dec 4000 1 : FR double) = FR.fin 400 := by
    simp only [FR.dec_eq]
    have e : ((4000 : ℕ) : ℝ) / 10 ^ 1 = ((400 : ℕ) : ℝ) := by norm_num
    rw [e, double_int (by norm_num)]; norm_num
  have e6 : (Arith.ofNat 1 / Arith.ofNat 12 : FR double) = FR.fin (double.fl (1 / 12)) := by
    simp only [FR.ofNat_eq]
    rw [double_int (by norm_num), double_int (by norm_num), FR.fin_div (by norm_num)]
    norm_num
  refine ⟨IRM.built U0.regD ⟨Arith.dec 3 1, U0.regD.cwm2⟩ ⟨Arith.dec 4 1, U0.regD.cwm2⟩ ⟨Arith.dec 90 1, U0.regD.yr⟩
    ⟨Arith.dec 4000 1, U0.regD.yr⟩ ⟨FR.fin e, U0.regD.one⟩ ⟨Arith.ofNat 1 / Arith.ofNat 12, U0.regD.yr⟩, ?_, ?_, ?_⟩
  · have hg : (Qty.mk (Arith.dec 90 1 : FR double) U0.regD.yr).ge U0.regD ⟨Arith.dec 4000 1, U0.regD.yr⟩ = .ok false := by
      rw [e3, e4]
      simp only [Qty.ge, if_true]
      have : Arith.le (FR.fin 400 : FR double) (FR.fin 9) = decide ((400 : ℝ) ≤ 9) := by
        show (decide ((400 : ℝ) ≤ 9)) = _
        congr
      rw [this]; norm_num
    refine (IRM.init_good (Or.inl rfl) (Or.inl rfl) (Or.inl rfl) (Or.inl rfl) (Or.inl rfl) (Or.inl rfl)).trans ?_
    rw [hg]
  · rw [e1, e2, e3, e4, e6]
    exact ⟨rfl, rfl, rfl, rfl, rfl⟩
  · rw [e1, e2, e3, e4, e6]
    show IsFNum U0.regD ⟨_, _⟩ _ _
    simp only [IsFNum, Qty.toUnit, Qty.magIn, true_or, if_true]
    rfl

/-- **C67** (`ImpulseResponseModel(efficacy=e)` in double precision, efficacy between 0.5 and 2 and not within 10⁻⁶ of 1).
Whatever the length of the run, under any forcing within ±100 W/m² the run succeeds and the heat uptake is within 10⁻⁶ W/m² of
the exact one. -/
theorem C67_default_efficacy {e : ℝ} (h1 : 1 / 2 ≤ e) (h2 : e ≤ 2) (h3 : 1 / 10 ^ 6 ≤ |e - 1|) {m : IRM U0 (FR double)}
    (hm : IRM.init U0.regD { IRM.defaultArgs U0.regD with efficacy := .qty ⟨FR.fin e, U0.regD.one⟩ } = .ok m)
    {n : ℕ} (hn : n ≠ 0) {d : DArg U0 (FR double)} {F : ℕ → ℝ} (hd : IsFForcing U0.regD d n F) (hF : ∀ i < n, |F i| ≤ 100)
    {T1 T2 U : ℕ → ℝ} (hex : IREq { IRPar.defaultD with e } 1 n F T1 T2 U) :
    ∃ T1' T2' T' U', IRM.FProduces U0.regD m d n T1' T2' T' (fseries n U') ∧ ∀ i < n, |U' i - U i| ≤ 1 / 10 ^ 6 := by
  obtain ⟨m', a1, a2, a3⟩ := U0.regD_efficacy_ir (e := e)
  rw [a1] at hm; cases hm
  obtain ⟨r1, r2, r3, r4, r5, r6⟩ := IRPar.withEfficacy_ranges h1 h2 h3
  obtain ⟨hok, -, -, -, bC, bD, -⟩ := IRPar.withEfficacy_bounds h1 h2
  have he1 : e ≠ 1 := by rintro rfl; norm_num at h3
  have c1 : (0.082 : ℝ) ≤ (IRPar.withEfficacy e).dt := IRPar.defaultD_bounds.2.2.1
  have hdt : 0 < (IRPar.withEfficacy e).dt := lt_of_lt_of_le (by norm_num) c1
  have x2 : (IRPar.withEfficacy e).d2 / (IRPar.withEfficacy e).dt ≤ 4900 := by
    rw [div_le_iff₀ hdt]
    show 400 ≤ _
    norm_num at c1 ⊢; linarith
  have x0 : 0 ≤ (IRPar.withEfficacy e).d2 / (IRPar.withEfficacy e).dt := div_nonneg (hok.d1.trans hok.d2).le hdt.le
  have hone : double.fl 1 = 1 := by have := double_int (n := 1) (by norm_num); rwa [Nat.cast_one] at this
  obtain ⟨γ, hγ⟩ : ∃ γ, γ = 1 + 2 * (IRPar.withEfficacy e).C / ((IRPar.withEfficacy e).e * (IRPar.withEfficacy e).D) := ⟨_, rfl⟩
  have hγ0 : 0 ≤ γ := by
    have := bC.pos; have := bD.pos; have := hok.e
    rw [hγ]; positivity
  rw [← hγ] at r5
  have hκ : ((IRPar.withEfficacy e).d2 + (IRPar.withEfficacy e).d1) / ((IRPar.withEfficacy e).d2 - (IRPar.withEfficacy e).d1) = 409 / 391 := by
    show (400 + 9 : ℝ) / (400 - 9) = _
    norm_num
  have W0 : 0 ≤ (IRPar.withEfficacy e).extra 100 :=
    le_trans (by positivity) (r4 _ (by simp [IRPar.extraSizes])).1
  obtain ⟨T1', T2', T', U', hrun, hb⟩ := C67_impulse_response_efficacy (double_accurate (10 ^ 62)) (by positivity) hone
    ⟨_, _, [], a1, rfl⟩ a2 a3 hok he1 hdt (by norm_num : (0 : ℝ) ≤ 100) r1 r2 r3 r4 hκ.symm hγ
    (by
      calc _ ≤ 700000 * (2⁻¹ : ℝ) ^ 53 * 2 * (409 / 391) ^ 2 := by gcongr
        _ ≤ _ := by norm_num)
    (by norm_num; linarith) hn hd hF hex
  refine ⟨T1', T2', T', U', hrun, fun i hi => (hb i hi).trans ?_⟩
  calc _ ≤ (2⁻¹ : ℝ) ^ 53 * 100 * (60 + 32 * 4900) + 2⁻¹ ^ 53 * 10 ^ 4 * (32 * (1 + 4900) + 132300 * 2 * (409 / 391) ^ 2) := by gcongr
    _ ≤ _ := by norm_num

/-- Concrete case: efficacy 1.5 and a thousand months of alternating ±50 W/m². -/
example : ∃ m T1 T2 U, IRM.init U0.regD { IRM.defaultArgs U0.regD with efficacy := .qty ⟨FR.fin (3 / 2), U0.regD.one⟩ } = .ok m ∧
    IsFForcing U0.regD (.qty ⟨1, fseries 1000 fun i => 50 * (-1) ^ i⟩ U0.regD.wm2) 1000 (fun i => 50 * (-1) ^ i) ∧
    (∀ i < 1000, |(50 * (-1) ^ i : ℝ)| ≤ 100) ∧ IREq { IRPar.defaultD with e := 3 / 2 } 1 1000 (fun i => 50 * (-1) ^ i) T1 T2 U := by
  obtain ⟨m, h1, -, -⟩ := U0.regD_efficacy_ir (e := 3 / 2)
  have hf : ∀ n, IsFForcing U0.regD (.qty ⟨1, fseries n fun i => 50 * (-1) ^ i⟩ U0.regD.wm2) n (fun i => 50 * (-1) ^ i) := by
    refine fun n => ⟨_, _, rfl, fseries_length _ _, fun i hi => ?_⟩
    have : (fseries n fun i => 50 * (-1) ^ i : List (FR double))[i] = FR.fin (50 * (-1) ^ i) := by simp [fseries]
    rw [this]
    exact ⟨by simp [IsFNum, Qty.toUnit, Qty.magIn], rfl⟩
  have hF : ∀ i : ℕ, |(50 * (-1) ^ i : ℝ)| ≤ 100 := fun i => by rw [abs_mul, abs_pow]; norm_num
  exact ⟨m, _, _, _, h1, hf 1000, fun i _ => hF i, IRPar.sol_eq _ 1 1000 _⟩

end TwoLayer
