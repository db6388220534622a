import Verif.Proofs.RoundingIR
import Verif.Proofs.Init
import Verif.Props.TwoLayer

/-!
# C67: rounding errors

`FR r`, `Rounding.Accurate`, `double`, `TLM.FPhys`, `TLM.FProduces`, `TLPar.InRange` and `TLPar.memory` are in
`Spec/Rounding.lean`; the exact equations `TLEq` are those of `Spec/Equations.lean`.
-/

set_option linter.unusedSimpArgs false
set_option linter.unusedSectionVars false

namespace TwoLayer
section
variable {N : Type} [Fintype N] [DecidableEq N] {r : Rounding} {R : Registry N (FR r)}

/-- **C67** (two-layer).  Linear model, positive parameters, a step that resolves both layers, every operation rounded
with relative error at most `u`.  For a run of *any* length whose forcing stays within `±l K`, the three reported series
differ from the exact solution of the discrete equations by multiples of `u K` that do not depend on the number of
steps: rounding errors do not accumulate. -/
theorem C67_two_layer (D : R.Dimensional) {u μ Ω K : ℝ} (hr : r.Accurate u μ Ω) (hu : 0 ≤ u) (hu1 : u ≤ 1 / 100)
    {m : TLM N (FR r)} (hm : TLM.Reachable R m) {p : TLPar} (hp : m.FPhys R p) (hpos : p.Pos) (hres : p.Resolved)
    (ha : p.a = 0) (hin : p.InRange K μ Ω) (hK : 0 ≤ K) (hκ : 48 * u * p.memory ≤ 1) {d : DArg N (FR r)} {n : ℕ}
    (hn : n ≠ 0) {F : ℕ → ℝ} (hd : IsFForcing R d n F) (hF : ∀ i < n, |F i| ≤ p.l * K) {T TD U : ℕ → ℝ}
    (hex : TLEq p n F T TD U) :
    ∃ T' TD' U', TLM.FProduces R m d n T' TD' U' ∧ ∀ i < n,
      |T' i - T i| ≤ 48 * u * K * ((p.C + p.e * p.D) / (p.dt * p.l)) ∧
      |TD' i - TD i| ≤ 48 * u * K * p.memory ∧
      |U' i - U i| ≤ u * (32 + 96 * p.memory) * (K * (p.C + p.D) / p.dt) := by
  refine ⟨_, _, _, TLM.fproduces hr.zero (TLM.Reachable.coherent R D hm) hp hpos.ok hn hd, fun i hi => ?_⟩
  obtain ⟨e1, e2, e3⟩ := hex.unique hpos.ok i hi
  rw [e1, e2, e3]
  obtain ⟨h1, h2⟩ := TLPar.fsol_err hr hu hu1 hpos hres ha hin hK hκ hF i hi.le
  exact ⟨h1, h2, TLPar.fsol_uptake hr hu hu1 hpos hres ha hin hK hκ hF i hi.le⟩

theorem IRPar.run_err {u μ Ω M : ℝ} (hr : r.Accurate u μ Ω) (hu : 0 ≤ u) (hu1 : u ≤ 1 / 100) {p : IRPar} (hok : p.Ok)
    (hdt : 0 < p.dt) (hin : p.InRange M μ Ω) (hM : 0 ≤ M) (hκ : 32 * u * (1 + p.d2 / p.dt) ≤ 1) {n : ℕ} {F : ℕ → ℝ}
    (hF : ∀ i < n, |F i| ≤ M) {T1 T2 : ℕ → ℝ} (h1 : BoxEq p.q1 p.d1 p.dt n F T1) (h2 : BoxEq p.q2 p.d2 p.dt n F T2)
    (i : ℕ) (hi : i < n) :
    |fboxes r p.q1 p.d1 p.dt F i - T1 i| ≤ 32 * u * (p.q1 * M) * (1 + p.d1 / p.dt) ∧
    |fboxes r p.q2 p.d2 p.dt F i - T2 i| ≤ 32 * u * (p.q2 * M) * (1 + p.d2 / p.dt) ∧
    |r.fl (fboxes r p.q1 p.d1 p.dt F i + fboxes r p.q2 p.d2 p.dt F i) - (T1 i + T2 i)| ≤
      32 * u * (p.q1 * M) * (1 + p.d1 / p.dt) + 32 * u * (p.q2 * M) * (1 + p.d2 / p.dt) +
        2 * u * ((p.q1 + p.q2) * M) := by
  have hd2 := hok.d1.trans hok.d2
  have hq1 := hok.q1; have hq2 := hok.q2
  obtain ⟨hμ, hΩ, hin⟩ := hin
  simp only [List.forall_mem_cons, List.not_mem_nil, IsEmpty.forall_iff, forall_const, and_true] at hin
  obtain ⟨⟨m1, o1⟩, ⟨m2, o2⟩, ⟨m3, o3⟩, ⟨m4, o4⟩, ⟨m5, o5⟩, ⟨m6, o6⟩⟩ := hin
  have x1 : 0 < p.dt / p.d1 := div_pos hdt hok.d1
  have x2 : 0 < p.dt / p.d2 := div_pos hdt hd2
  have hκ1 : 32 * u * (1 + p.d1 / p.dt) ≤ 1 := by
    refine le_trans ?_ hκ
    have := hok.d2
    gcongr
  obtain ⟨-, a1, a2⟩ := fboxes_err hr hu hu1 hμ hΩ hok.q1 hok.d1 hdt m4 (by linarith) m1 o1 hM hκ1 hF h1 i hi
  obtain ⟨-, b1, b2⟩ := fboxes_err hr hu hu1 hμ hΩ hok.q2 hd2 hdt m5 (by linarith) m2 o2 hM hκ hF h2 i hi
  refine ⟨a1, b1, ?_⟩
  set t1 := fboxes r p.q1 p.d1 p.dt F i
  set t2 := fboxes r p.q2 p.d2 p.dt F i
  have hs : |t1 + t2| ≤ 2 * ((p.q1 + p.q2) * M) := (abs_add_le _ _).trans (by linarith)
  have hf := hr.fl (t1 + t2) (by linarith)
  have hs0 : 0 ≤ (p.q1 + p.q2) * M := by positivity
  have hmx : max |t1 + t2| μ ≤ 2 * ((p.q1 + p.q2) * M) := max_le hs (by linarith)
  calc |r.fl (t1 + t2) - (T1 i + T2 i)| = |(r.fl (t1 + t2) - (t1 + t2)) + ((t1 - T1 i) + (t2 - T2 i))| := by congr 1; ring
    _ ≤ |r.fl (t1 + t2) - (t1 + t2)| + (|t1 - T1 i| + |t2 - T2 i|) :=
        (abs_add_le _ _).trans (add_le_add le_rfl (abs_add_le _ _))
    _ ≤ u * (2 * ((p.q1 + p.q2) * M)) + (32 * u * (p.q1 * M) * (1 + p.d1 / p.dt) + 32 * u * (p.q2 * M) * (1 + p.d2 / p.dt)) :=
        add_le_add (hf.trans (by gcongr)) (add_le_add a1 b1)
    _ = _ := by ring

theorem IRPar.uptake_err {u μ Ω M : ℝ} (hr : r.Accurate u μ Ω) (hu : 0 ≤ u) (hu1 : u ≤ 1 / 100) (hμ0 : 0 ≤ μ) {p : IRPar}
    (hok : p.Ok) (he : p.e = 1) (hdt : 0 < p.dt) (hin : p.InRange M μ Ω) (hci : p.ConvInRange μ Ω) (hM : 0 ≤ M)
    (hκ : 32 * u * (1 + p.d2 / p.dt) ≤ 1) {n : ℕ} {F : ℕ → ℝ} (hF : ∀ i < n, |F i| ≤ M) {T1 T2 U : ℕ → ℝ}
    (hex : IREq p 1 n F T1 T2 U) (i : ℕ) (hi : i < n) :
    |p.fU r F i - U i| ≤ u * M * (59 + 32 * (p.d2 / p.dt)) := by
  have hd2 := hok.d1.trans hok.d2
  have hq1 := hok.q1; have hq2 := hok.q2
  have hμ := hin.1
  cases i with
  | zero =>
    rw [hex.uptake.1 hi]
    simp only [IRPar.fU, sub_zero, abs_zero]
    have : 0 < p.d2 / p.dt := div_pos hd2 hdt
    positivity
  | succ i =>
    have hUi := hex.uptake.2 i hi
    have hκ1 : 32 * u * (1 + p.d1 / p.dt) ≤ 1 := by
      refine le_trans ?_ hκ
      have := hok.d2
      gcongr
    have hin' := hin
    obtain ⟨-, hΩ, hin⟩ := hin
    simp only [List.forall_mem_cons, List.not_mem_nil, IsEmpty.forall_iff, forall_const, and_true] at hin
    obtain ⟨⟨m1, o1⟩, ⟨m2, o2⟩, ⟨m3, o3⟩, ⟨m4, o4⟩, ⟨m5, o5⟩, ⟨m6, o6⟩⟩ := hin
    have x1 : 0 < p.dt / p.d1 := div_pos hdt hok.d1
    have x2 : 0 < p.dt / p.d2 := div_pos hdt hd2
    obtain ⟨-, a1, a2⟩ := fboxes_err hr hu hu1 hμ hΩ hok.q1 hok.d1 hdt m4 (by linarith) m1 o1 hM hκ1 hF hex.box1 i (by omega)
    obtain ⟨-, b1, b2⟩ := fboxes_err hr hu hu1 hμ hΩ hok.q2 hd2 hdt m5 (by linarith) m2 o2 hM hκ hF hex.box2 i (by omega)
    have e := IRPar.fU_err hr hu hu1 hok hμ0 hM hci hin' (hF i (by omega)) a2 b2
    set t1 := fboxes r p.q1 p.d1 p.dt F i with ht1
    set t2 := fboxes r p.q2 p.d2 p.dt F i with ht2
    have hl : 0 < p.l := by
      show 0 < 1 / (p.q1 + p.q2)
      positivity
    have hlq : p.l * (p.q1 * M + p.q2 * M) = M := by
      show 1 / (p.q1 + p.q2) * (p.q1 * M + p.q2 * M) = M
      field_simp
    rw [hUi, he]
    show |r.fl (r.fl (F i - r.fl (p.fl0 r * r.fl (t1 + t2)))) - _| ≤ _
    have key : r.fl (r.fl (F i - r.fl (p.fl0 r * r.fl (t1 + t2)))) - (F i - 1 * p.l * (T1 i + T2 i) -
        (1 - 1) * p.h * (T1 i + T2 i - (p.phi1 * T1 i + p.phi2 * T2 i))) =
        (r.fl (r.fl (F i - r.fl (p.fl0 r * r.fl (t1 + t2)))) - (F i - p.l * (t1 + t2))) -
        p.l * ((t1 - T1 i) + (t2 - T2 i)) := by ring
    rw [key]
    have hd12 : p.d1 / p.dt ≤ p.d2 / p.dt := by have := hok.d2; gcongr
    have hK1 : 0 ≤ p.q1 * M := by positivity
    have hA : |t1 - T1 i| ≤ 32 * u * (p.q1 * M) * (1 + p.d2 / p.dt) := a1.trans (by gcongr)
    calc _ ≤ 27 * u * M + p.l * (32 * u * (p.q1 * M) * (1 + p.d2 / p.dt) + 32 * u * (p.q2 * M) * (1 + p.d2 / p.dt)) := by
          refine (abs_sub _ _).trans (add_le_add e ?_)
          rw [abs_mul, abs_of_pos hl]
          have := (abs_add_le (t1 - T1 i) (t2 - T2 i)).trans (add_le_add hA b1)
          gcongr
      _ = 27 * u * M + 32 * u * (1 + p.d2 / p.dt) * (p.l * (p.q1 * M + p.q2 * M)) := by ring
      _ = _ := by rw [hlq]; ring

/-- **C67** (impulse response).  Every operation rounded with relative error at most `u`.  Whatever the length of the run,
if it succeeds and its forcing stays within `±M`, the reported box temperatures and their sum differ from the exact
response by multiples of `u M` that do not depend on the number of steps. -/
theorem C67_impulse_response {u μ Ω M : ℝ} (hr : r.Accurate u μ Ω) (hu : 0 ≤ u) (hu1 : u ≤ 1 / 100)
    {m : IRM N (FR r)} (hm : IRM.Reachable R m) {p : IRPar} (hp : m.FPhys R p) (hok : p.Ok) (hdt : 0 < p.dt)
    (hin : p.InRange M μ Ω) (hM : 0 ≤ M) (hκ : 32 * u * (1 + p.d2 / p.dt) ≤ 1) {d : DArg N (FR r)} {n : ℕ}
    (hn : n ≠ 0) {F : ℕ → ℝ} (hd : IsFForcing R d n F) (hF : ∀ i < n, |F i| ≤ M) {T1 T2 : ℕ → ℝ}
    (h1 : BoxEq p.q1 p.d1 p.dt n F T1) (h2 : BoxEq p.q2 p.d2 p.dt n F T2)
    {m' : IRM N (FR r)} (hrun : IRM.simulate R d m = (m', .ok ())) :
    ∃ T1' T2' T' us, IRM.FProduces R m d n T1' T2' T' us ∧ ∀ i < n,
      |T1' i - T1 i| ≤ 32 * u * (p.q1 * M) * (1 + p.d1 / p.dt) ∧
      |T2' i - T2 i| ≤ 32 * u * (p.q2 * M) * (1 + p.d2 / p.dt) ∧
      |T' i - (T1 i + T2 i)| ≤ 32 * u * (p.q1 * M) * (1 + p.d1 / p.dt) + 32 * u * (p.q2 * M) * (1 + p.d2 / p.dt) +
        2 * u * ((p.q1 + p.q2) * M) := by
  have hc := IRM.Reachable.coherent R hm
  have hd2 := hok.d1.trans hok.d2
  have hq1 := hok.q1; have hq2 := hok.q2
  obtain ⟨us, hpr, -, -⟩ := IRM.fproduces hr.zero hc hp hok.d1.ne' hd2.ne' hn hd hrun
  exact ⟨_, _, _, us, hpr, fun i hi => IRPar.run_err hr hu hu1 hok hdt hin hM hκ hF h1 h2 i hi⟩

/-- **C67** (impulse response, efficacy 1).  With parameters in the units of the model and efficacy 1 the run succeeds, and
the heat uptake too is within a multiple of `u M` that does not depend on the number of steps. -/
theorem C67_impulse_response_uptake {u μ Ω M : ℝ} (hr : r.Accurate u μ Ω) (hu : 0 ≤ u) (hu1 : u ≤ 1 / 100) (hμ0 : 0 ≤ μ)
    (ho : r.fl 1 = 1) {m : IRM N (FR r)} (hm : IRM.Reachable R m) {p : IRPar} (hp : m.FPhys R p) (hpl : m.PlainUnits R)
    (hok : p.Ok) (hdt : 0 < p.dt) (hin : p.InRange M μ Ω) (hci : p.ConvInRange μ Ω) (hM : 0 ≤ M)
    (hκ : 32 * u * (1 + p.d2 / p.dt) ≤ 1) {d : DArg N (FR r)} {n : ℕ}
    (hn : n ≠ 0) {F : ℕ → ℝ} (hd : IsFForcing R d n F) (hF : ∀ i < n, |F i| ≤ M) {T1 T2 U : ℕ → ℝ}
    (hex : IREq p 1 n F T1 T2 U) :
    ∃ T1' T2' T' U', IRM.FProduces R m d n T1' T2' T' (fseries n U') ∧ ∀ i < n,
      |U' i - U i| ≤ u * M * (59 + 32 * (p.d2 / p.dt)) := by
  have hc := IRM.Reachable.coherent R hm
  have hd2 := hok.d1.trans hok.d2
  have hq1 := hok.q1; have hq2 := hok.q2
  have hμ := hin.1
  obtain ⟨m', hrun⟩ := IRM.fsucceeds hr hu hu1 hc hp hok hpl hμ hμ0 hci ho hn hd
  obtain ⟨us, hpr, hlen, hus⟩ := IRM.fproduces hr.zero hc hp hok.d1.ne' hd2.ne' hn hd hrun
  have hseq := IRM.fseq_one hr hu hu1 hc hp hok hpl hμ hμ0 hci ho n F
  have hU : us = fseries n (p.fU r F) := by
    apply eq_fseries hlen
    intro i hi
    obtain ⟨c, g1, g2⟩ := hus i hi
    rw [hseq i hi] at g2
    simp only [Except.ok.injEq, Prod.mk.injEq, true_and] at g2
    rw [g1, g2]
  rw [hU] at hpr
  refine ⟨_, _, _, _, hpr, fun i hi => ?_⟩
  have he : p.e = 1 := by
    have := hp.efficacy.magIn
    rw [hpl.efficacy, Qty.magIn, if_pos rfl] at this
    exact (XR.fin.inj this).symm
  exact IRPar.uptake_err hr hu hu1 hμ0 hok he hdt hin hci hM hκ hF hex i hi
end

/-! ## `TwoLayerModel()` in double precision -/

/-- the reference registry over doubles: pint multiplies the magnitude by a conversion factor -/
noncomputable def U0.regD : Registry U0 (FR double) where
  watt := watt
  meter := meter
  ddegC := ddegC
  second := second
  year := year
  month := month
  joule := joule
  kilogram := kilogram
  compat u v := decide (dimOf dim u = dimOf dim v)
  conv u v x := x * FR.fin (double.fl (scaleOf scale u / scaleOf scale v))
  root u := ∑ d, dimOf dim u d • u1 (base d)
  parse s := if s = "W/m^2" then some (u1 watt - (2 : ℚ) • u1 meter) else none
  str u := toString (u watt) ++ toString (u meter) ++ toString (u ddegC) ++ toString (u second)

/-- its dimensional analysis -/
noncomputable def U0.dimensionalD : U0.regD.Dimensional where
  Dim := Fin 4
  dim := dim
  compat_iff u v := by simp [regD]
  dim_joule := by funext e; fin_cases e <;> norm_num [regD, dim]
  dim_year := rfl
  dim_month := rfl

/-- the parameters that `TwoLayerModel()` holds in double precision -/
noncomputable def TLPar.defaultD : TLPar where
  C := 209050000
  D := 5017200000
  l := double.fl (double.fl 3.74 / 3)
  a := 0
  e := 1
  h := double.fl 0.8
  dt := 31557600

/-- `double` is what it claims to be: its results are binary64 numbers, no binary64 number is closer to the exact result,
and a binary64 number is left alone.  -/
theorem double_nearest (x : ℝ) : IsDouble (double.fl x) ∧ (∀ y, IsDouble y → |x - double.fl x| ≤ |x - y|) ∧
    (IsDouble x → double.fl x = x) :=
  ⟨near64_isDouble x, fun _ hy => near64_nearest x hy, near64_of_isDouble⟩

theorem double_close {x : ℝ} (hx : 1 / 2 ≤ |x|) : |double.fl x - x| ≤ 2⁻¹ ^ 53 * |x| := by
  have := round_err x
  rwa [max_eq_left] at this
  refine le_trans ?_ hx
  have : ((2 : ℝ)⁻¹) ^ 1022 ≤ 2⁻¹ ^ 1 := pow_le_pow_of_le_one (by norm_num) (by norm_num) (by norm_num)
  exact this.trans (by norm_num)

theorem TLPar.defaultD_l : 1.24 ≤ TLPar.defaultD.l ∧ TLPar.defaultD.l ≤ 1.25 := by
  have h1 := double_close (x := 3.74) (by rw [abs_of_pos] <;> norm_num)
  rw [abs_of_pos (by norm_num : (0 : ℝ) < 3.74), abs_le] at h1
  have a1 : (3.739 : ℝ) ≤ double.fl 3.74 := by norm_num at h1 ⊢; linarith [h1.1]
  have a2 : double.fl 3.74 ≤ (3.741 : ℝ) := by norm_num at h1 ⊢; linarith [h1.2]
  set y := double.fl 3.74
  have hy : 0 < y / 3 := by linarith
  have h2 := double_close (x := y / 3) (by rw [abs_of_pos hy]; linarith)
  rw [abs_of_pos hy, abs_le] at h2
  show 1.24 ≤ double.fl (y / 3) ∧ double.fl (y / 3) ≤ 1.25
  have h3 : (2⁻¹ : ℝ) ^ 53 * (y / 3) ≤ 0.001 := by
    have : (2⁻¹ : ℝ) ^ 53 ≤ 0.0001 := by norm_num
    nlinarith
  constructor <;> norm_num at * <;> linarith [h2.1, h2.2]

theorem TLPar.defaultD_h : 0.79 ≤ TLPar.defaultD.h ∧ TLPar.defaultD.h ≤ 0.81 := by
  have h1 := double_close (x := 0.8) (by rw [abs_of_pos] <;> norm_num)
  rw [abs_of_pos (by norm_num : (0 : ℝ) < 0.8), abs_le] at h1
  show 0.79 ≤ double.fl 0.8 ∧ double.fl 0.8 ≤ 0.81
  constructor <;> norm_num at * <;> linarith [h1.1, h1.2]

theorem TLPar.defaultD_pos : TLPar.defaultD.Pos :=
  ⟨by norm_num [defaultD], by norm_num [defaultD], by linarith [defaultD_l.1], by norm_num [defaultD],
    by linarith [defaultD_h.1], by norm_num [defaultD]⟩

theorem TLPar.defaultD_resolved : TLPar.defaultD.Resolved := by
  have h := defaultD_pos
  refine ⟨h.C, h.D, h.l, h.e.le, h.h.le, h.dt, ?_, ?_⟩
  · show 31557600 * (defaultD.l + 1 * defaultD.h) ≤ 209050000
    linarith [defaultD_l.2, defaultD_h.2]
  · show 31557600 * defaultD.h ≤ 5017200000
    linarith [defaultD_h.2]

theorem TLPar.defaultD_forget : (TLPar.defaultD.C + TLPar.defaultD.e * TLPar.defaultD.D) /
    (TLPar.defaultD.dt * TLPar.defaultD.l) ≤ 134 := by
  show (209050000 + 1 * 5017200000) / (31557600 * defaultD.l) ≤ (134 : ℝ)
  rw [div_le_iff₀ (by linarith [defaultD_l.1])]
  linarith [defaultD_l.1]

theorem TLPar.defaultD_memory : TLPar.defaultD.memory ≤ 336 := by
  have h1 := defaultD_forget
  have h2 : defaultD.D / (defaultD.dt * defaultD.h) ≤ 202 := by
    show 5017200000 / (31557600 * defaultD.h) ≤ (202 : ℝ)
    rw [div_le_iff₀ (by linarith [defaultD_h.1])]
    linarith [defaultD_h.1]
  unfold memory
  linarith

theorem TLPar.defaultD_inRange : TLPar.defaultD.InRange 81 (2⁻¹ ^ 1022) (10 ^ 20) := by
  obtain ⟨l1, l2⟩ := defaultD_l
  obtain ⟨h1, h2⟩ := defaultD_h
  have hμ : (2⁻¹ : ℝ) ^ 1022 ≤ 10⁻¹ ^ 20 := by
    calc (2⁻¹ : ℝ) ^ 1022 ≤ 2⁻¹ ^ 100 := pow_le_pow_of_le_one (by norm_num) (by norm_num) (by norm_num)
      _ ≤ _ := by norm_num
  have key : ∀ x : ℝ, 10⁻¹ ^ 20 ≤ x → x ≤ 10 ^ 18 → (2⁻¹ : ℝ) ^ 1022 ≤ x ∧ 32 * x ≤ 10 ^ 20 :=
    fun x a b => ⟨hμ.trans a, by linarith⟩
  have eC : defaultD.C = 209050000 := rfl
  have eD : defaultD.D = 5017200000 := rfl
  have ee : defaultD.e = 1 := rfl
  have et : defaultD.dt = 31557600 := rfl
  unfold InRange
  rw [eC, eD, ee, et]
  generalize defaultD.l = l at *
  generalize defaultD.h = h at *
  simp only [List.forall_mem_cons, List.not_mem_nil, IsEmpty.forall_iff, forall_const, and_true]
  refine ⟨?_, ?_, ?_, ?_, ?_, ?_, ?_, ?_, ?_, ?_, ?_, ?_, ?_, ?_, ?_⟩ <;> apply key <;> norm_num at * <;> linarith

theorem U0.regD_default : ∃ m, TLM.init U0.regD (TLM.defaultArgs U0.regD) = .ok m ∧ m.FPhys U0.regD TLPar.defaultD := by
  have hy : (Qty.mk (Arith.ofNat 1) U0.regD.yr).magIn U0.regD U0.regD.s = FR.fin 31557600 := by
    have hne : U0.regD.yr ≠ U0.regD.s := by
      intro h
      have := congrFun h U0.year
      simp [Registry.yr, Registry.s, U0.regD, u1] at this
    simp only [Qty.magIn, if_neg hne]
    show (FR.fin (double.fl (1 : ℕ)) : FR double) * FR.fin (double.fl (scaleOf U0.scale (u1 U0.year) / scaleOf U0.scale (u1 U0.second))) = _
    rw [scaleOf_u1, scaleOf_u1]
    have e1 : (U0.scale U0.year / U0.scale U0.second : ℝ) = ((31557600 : ℕ) : ℝ) := by norm_num [U0.scale]
    rw [e1, double_int (by norm_num), double_int (by norm_num), FR.fin_mul]
    rw [← Nat.cast_mul, double_int (by norm_num)]
    norm_num
  have hself : ∀ (x : ℝ) (u : Units U0), IsFNum U0.regD ⟨FR.fin x, u⟩ u x := by
    intro x u; simp [IsFNum, Qty.toUnit, Qty.magIn]
  have hu : U0.regD.m + (u1 U0.regD.kilogram - (3 : ℚ) • u1 U0.regD.meter) +
      (u1 U0.regD.joule - u1 U0.regD.ddegC - u1 U0.regD.kilogram) = U0.regD.jm2c := by
    simp only [Registry.jm2c, Registry.m]
    funext x; simp; ring
  refine ⟨_, TLM.init_good U0.dimensionalD (Or.inl rfl) (Or.inl rfl) (Or.inl rfl) (Or.inl rfl) (Or.inl rfl)
    (Or.inl rfl) (Or.inl rfl), ⟨?_, ?_, ?_, ?_, ?_, ?_, ?_⟩⟩
  · have : TLM.heatCapacityUpper U0.regD (TLM.built U0.regD ⟨Arith.ofNat 50, U0.regD.m⟩ ⟨Arith.ofNat 1200, U0.regD.m⟩
        ⟨Arith.dec 374 2 / Arith.ofNat 3, U0.regD.wm2c⟩ ⟨Arith.dec 0 1, U0.regD.wm2cc⟩ ⟨Arith.dec 10 1, U0.regD.one⟩
        ⟨Arith.dec 8 1, U0.regD.wm2c⟩ ⟨(Qty.mk (Arith.ofNat 1) U0.regD.yr).magIn U0.regD U0.regD.s, U0.regD.s⟩) =
        ⟨FR.fin 209050000, U0.regD.jm2c⟩ := by
      simp only [TLM.heatCapacityUpper, TLM.heatCapacityOf, TLM.built, Registry.densityWater, Registry.heatCapacityWater, Qty.mul, hu]
      congr 1
      simp only [FR.ofNat_eq]
      rw [double_int (by norm_num), double_int (by norm_num), double_int (by norm_num), FR.fin_mul, ← Nat.cast_mul,
        double_int (by norm_num), FR.fin_mul, ← Nat.cast_mul, double_int (by norm_num)]
      norm_num
    rw [this]; exact hself _ _
  · have : TLM.heatCapacityLower U0.regD (TLM.built U0.regD ⟨Arith.ofNat 50, U0.regD.m⟩ ⟨Arith.ofNat 1200, U0.regD.m⟩
        ⟨Arith.dec 374 2 / Arith.ofNat 3, U0.regD.wm2c⟩ ⟨Arith.dec 0 1, U0.regD.wm2cc⟩ ⟨Arith.dec 10 1, U0.regD.one⟩
        ⟨Arith.dec 8 1, U0.regD.wm2c⟩ ⟨(Qty.mk (Arith.ofNat 1) U0.regD.yr).magIn U0.regD U0.regD.s, U0.regD.s⟩) =
        ⟨FR.fin 5017200000, U0.regD.jm2c⟩ := by
      simp only [TLM.heatCapacityLower, TLM.heatCapacityOf, TLM.built, Registry.densityWater, Registry.heatCapacityWater, Qty.mul, hu]
      congr 1
      simp only [FR.ofNat_eq]
      rw [double_int (by norm_num), double_int (by norm_num), double_int (by norm_num), FR.fin_mul, ← Nat.cast_mul,
        double_int (by norm_num), FR.fin_mul, ← Nat.cast_mul, double_int (by norm_num)]
      norm_num
    rw [this]; exact hself _ _
  · show IsFNum U0.regD ⟨Arith.dec 374 2 / Arith.ofNat 3, U0.regD.wm2c⟩ U0.regD.wm2c _
    have : (Arith.dec 374 2 / Arith.ofNat 3 : FR double) = FR.fin TLPar.defaultD.l := by
      simp only [FR.dec_eq, FR.ofNat_eq]
      rw [double_int (by norm_num), FR.fin_div (by norm_num)]
      have e : ((374 : ℕ) : ℝ) / 10 ^ 2 = 3.74 := by norm_num
      rw [e]; rfl
    rw [this]; exact hself _ _
  · show IsFNum U0.regD ⟨Arith.dec 0 1, U0.regD.wm2cc⟩ U0.regD.wm2cc 0
    have : (Arith.dec 0 1 : FR double) = FR.fin 0 := by
      simp only [FR.dec_eq]
      have e : ((0 : ℕ) : ℝ) / 10 ^ 1 = ((0 : ℕ) : ℝ) := by norm_num
      rw [e, double_int (by norm_num)]; norm_num
    rw [this]; exact hself _ _
  · show IsFNum U0.regD ⟨Arith.dec 10 1, U0.regD.one⟩ U0.regD.one 1
    have : (Arith.dec 10 1 : FR double) = FR.fin 1 := by
      simp only [FR.dec_eq]
      have e : ((10 : ℕ) : ℝ) / 10 ^ 1 = ((1 : ℕ) : ℝ) := by norm_num
      rw [e, double_int (by norm_num)]; norm_num
    rw [this]; exact hself _ _
  · show IsFNum U0.regD ⟨Arith.dec 8 1, U0.regD.wm2c⟩ U0.regD.wm2c _
    have : (Arith.dec 8 1 : FR double) = FR.fin TLPar.defaultD.h := by
      simp only [FR.dec_eq]
      have e : ((8 : ℕ) : ℝ) / 10 ^ 1 = 0.8 := by norm_num
      rw [e]; rfl
    rw [this]; exact hself _ _
  · show IsFNum U0.regD ⟨(Qty.mk (Arith.ofNat 1) U0.regD.yr).magIn U0.regD U0.regD.s, U0.regD.s⟩ U0.regD.s _
    rw [hy]; exact hself _ _

/-- **C67** (`TwoLayerModel()` in double precision).  Whatever the length of the run, under any forcing within ±100 W/m²
the reported temperatures are within 10⁻⁹ K, and the heat uptake within 10⁻⁷ W/m², of the exact solution of the discrete
equations with the parameters the object holds. -/
theorem C67_default {m : TLM U0 (FR double)} (hm : TLM.init U0.regD (TLM.defaultArgs U0.regD) = .ok m) {n : ℕ} (hn : n ≠ 0)
    {d : DArg U0 (FR double)} {F : ℕ → ℝ} (hd : IsFForcing U0.regD d n F) (hF : ∀ i < n, |F i| ≤ 100) {T TD U : ℕ → ℝ}
    (hex : TLEq TLPar.defaultD n F T TD U) :
    ∃ T' TD' U', TLM.FProduces U0.regD m d n T' TD' U' ∧ ∀ i < n,
      |T' i - T i| ≤ 1 / 10 ^ 9 ∧ |TD' i - TD i| ≤ 1 / 10 ^ 9 ∧ |U' i - U i| ≤ 1 / 10 ^ 7 := by
  obtain ⟨m', h1, h2⟩ := U0.regD_default
  rw [h1] at hm; cases hm
  have hmem := TLPar.defaultD_memory
  have hfor := TLPar.defaultD_forget
  obtain ⟨l1, l2⟩ := TLPar.defaultD_l
  obtain ⟨T', TD', U', hrun, hb⟩ := C67_two_layer U0.dimensionalD (double_accurate (10 ^ 20)) (by positivity)
    (by norm_num) ⟨_, _, [], h1, rfl⟩ h2 TLPar.defaultD_pos TLPar.defaultD_resolved rfl TLPar.defaultD_inRange (by norm_num)
    (by norm_num; linarith) hn hd (fun i hi => (hF i hi).trans (by norm_num at *; linarith)) hex
  refine ⟨T', TD', U', hrun, fun i hi => ?_⟩
  obtain ⟨b1, b2, b3⟩ := hb i hi
  refine ⟨b1.trans ?_, b2.trans ?_, b3.trans ?_⟩
  · norm_num at *; linarith
  · norm_num at *; linarith
  · show 2⁻¹ ^ 53 * (32 + 96 * TLPar.defaultD.memory) * (81 * (209050000 + 5017200000) / 31557600) ≤ _
    norm_num at *; linarith

/-- Concrete case: a thousand years of alternating ±50 W/m². -/
example : ∃ m T TD U, TLM.init U0.regD (TLM.defaultArgs U0.regD) = .ok m ∧
    IsFForcing U0.regD (.qty ⟨1, fseries 1000 fun i => 50 * (-1) ^ i⟩ U0.regD.wm2) 1000 (fun i => 50 * (-1) ^ i) ∧
    (∀ i < 1000, |(50 * (-1) ^ i : ℝ)| ≤ 100) ∧ TLEq TLPar.defaultD 1000 (fun i => 50 * (-1) ^ i) T TD U := by
  obtain ⟨m, h1, h2⟩ := U0.regD_default
  have hf : ∀ n, IsFForcing U0.regD (.qty ⟨1, fseries n fun i => 50 * (-1) ^ i⟩ U0.regD.wm2) n (fun i => 50 * (-1) ^ i) := by
    refine fun n => ⟨_, _, rfl, fseries_length _ _, fun i hi => ?_⟩
    have : (fseries n fun i => 50 * (-1) ^ i : List (FR double))[i] = FR.fin (50 * (-1) ^ i) := by simp [fseries]
    rw [this]
    exact ⟨by simp [IsFNum, Qty.toUnit, Qty.magIn], rfl⟩
  have hF : ∀ i : ℕ, |(50 * (-1) ^ i : ℝ)| ≤ 100 := fun i => by rw [abs_mul, abs_pow]; norm_num
  exact ⟨m, _, _, _, h1, hf 1000, fun i _ => hF i, TLPar.sol_eq TLPar.defaultD_pos.ok 1000 _⟩

/-! ## `ImpulseResponseModel()` in double precision -/

/-- the parameters that `ImpulseResponseModel()` holds in double precision -/
noncomputable def IRPar.defaultD : IRPar where
  q1 := double.fl 0.3
  q2 := double.fl 0.4
  d1 := 9
  d2 := 400
  e := 1
  dt := double.fl (1 / 12)

theorem double_close' {x : ℝ} (h0 : 1 / 100 ≤ x) (h1 : x ≤ 1 / 2) : x - 1 / 1000 ≤ double.fl x ∧ double.fl x ≤ x + 1 / 1000 := by
  have := round_err x
  have hm : max |x| (2⁻¹ ^ 1022) ≤ 1 := by
    refine max_le (by rw [abs_of_pos (by linarith)]; linarith) ?_
    exact pow_le_one₀ (by norm_num) (by norm_num)
  have h2 : (2⁻¹ : ℝ) ^ 53 * max |x| (2⁻¹ ^ 1022) ≤ 1 / 1000 := by
    calc (2⁻¹ : ℝ) ^ 53 * max |x| (2⁻¹ ^ 1022) ≤ 2⁻¹ ^ 53 * 1 := by gcongr
      _ ≤ _ := by norm_num
  have h3 := abs_le.mp (this.trans h2)
  exact ⟨by have := h3.1; show _ ≤ near64 x; linarith,
    by have := h3.2; show near64 x ≤ _; linarith⟩

theorem IRPar.defaultD_bounds : (0.299 ≤ IRPar.defaultD.q1 ∧ IRPar.defaultD.q1 ≤ 0.301) ∧
    (0.399 ≤ IRPar.defaultD.q2 ∧ IRPar.defaultD.q2 ≤ 0.401) ∧ (0.082 ≤ IRPar.defaultD.dt ∧ IRPar.defaultD.dt ≤ 0.085) := by
  have h1 := double_close' (x := 0.3) (by norm_num) (by norm_num)
  have h2 := double_close' (x := 0.4) (by norm_num) (by norm_num)
  have h3 := double_close' (x := 1 / 12) (by norm_num) (by norm_num)
  show (0.299 ≤ double.fl 0.3 ∧ double.fl 0.3 ≤ 0.301) ∧ (0.399 ≤ double.fl 0.4 ∧ double.fl 0.4 ≤ 0.401) ∧
    (0.082 ≤ double.fl (1 / 12) ∧ double.fl (1 / 12) ≤ 0.085)
  refine ⟨⟨?_, ?_⟩, ⟨?_, ?_⟩, ⟨?_, ?_⟩⟩
  · exact le_trans (by norm_num) h1.1
  · exact h1.2.trans (by norm_num)
  · exact le_trans (by norm_num) h2.1
  · exact h2.2.trans (by norm_num)
  · exact le_trans (by norm_num) h3.1
  · exact h3.2.trans (by norm_num)

theorem IRPar.defaultD_ok : IRPar.defaultD.Ok := by
  obtain ⟨⟨a, -⟩, ⟨b, -⟩, -⟩ := defaultD_bounds
  exact ⟨by norm_num at a ⊢; linarith, by norm_num at b ⊢; linarith, by norm_num [defaultD], by norm_num [defaultD],
    by norm_num [defaultD]⟩

theorem small_normal : (2⁻¹ : ℝ) ^ 1022 ≤ 10⁻¹ ^ 20 := by
  calc (2⁻¹ : ℝ) ^ 1022 ≤ 2⁻¹ ^ 100 := pow_le_pow_of_le_one (by norm_num) (by norm_num) (by norm_num)
    _ ≤ _ := by norm_num

theorem IRPar.defaultD_inRange : IRPar.defaultD.InRange 100 (2⁻¹ ^ 1022) (10 ^ 20) := by
  obtain ⟨⟨a1, a2⟩, ⟨b1, b2⟩, ⟨c1, c2⟩⟩ := defaultD_bounds
  have hμ := small_normal
  have key : ∀ x : ℝ, 10⁻¹ ^ 20 ≤ x → x ≤ 10 ^ 18 → (2⁻¹ : ℝ) ^ 1022 ≤ x ∧ 64 * x ≤ 10 ^ 20 :=
    fun x a b => ⟨hμ.trans a, by linarith⟩
  have e1 : defaultD.d1 = 9 := rfl
  have e2 : defaultD.d2 = 400 := rfl
  unfold InRange
  rw [e1, e2]
  generalize defaultD.q1 = q1 at *
  generalize defaultD.q2 = q2 at *
  generalize defaultD.dt = dt at *
  refine ⟨hμ.trans (by norm_num), by norm_num, ?_⟩
  simp only [List.forall_mem_cons, List.not_mem_nil, IsEmpty.forall_iff, forall_const, and_true]
  refine ⟨?_, ?_, ?_, ?_, ?_, ?_⟩ <;> apply key <;> norm_num at * <;> linarith

theorem IRPar.defaultD_conv : IRPar.defaultD.ConvInRange (2⁻¹ ^ 1022) (10 ^ 20) := by
  obtain ⟨⟨a1, a2⟩, ⟨b1, b2⟩, -⟩ := defaultD_bounds
  have hμ := small_normal
  have key : ∀ x : ℝ, 10⁻¹ ^ 10 ≤ x → x ≤ 10 ^ 10 → 64 * (2⁻¹ : ℝ) ^ 1022 ≤ x ∧ 128 * x ≤ 10 ^ 20 :=
    fun x a b => ⟨((mul_le_mul_of_nonneg_left hμ (by norm_num)).trans (by norm_num)).trans a, by linarith⟩
  have e1 : defaultD.d1 = 9 := rfl
  have e2 : defaultD.d2 = 400 := rfl
  unfold ConvInRange
  rw [e1, e2]
  generalize defaultD.q1 = q1 at *
  generalize defaultD.q2 = q2 at *
  norm_num only at a1 a2 b1 b2
  have hs : 0 < q1 + q2 := by linarith
  have r1 : 1 / 100 ≤ q1 / (q1 + q2) ∧ q1 / (q1 + q2) ≤ 1 :=
    ⟨by rw [le_div_iff₀ hs]; linarith, by rw [div_le_iff₀ hs]; linarith⟩
  have r2 : 1 / 100 ≤ q2 / (q1 + q2) ∧ q2 / (q1 + q2) ≤ 1 :=
    ⟨by rw [le_div_iff₀ hs]; linarith, by rw [div_le_iff₀ hs]; linarith⟩
  have r3 : 1 ≤ 1 / (q1 + q2) ∧ 1 / (q1 + q2) ≤ 2 :=
    ⟨by rw [le_div_iff₀ hs]; linarith, by rw [div_le_iff₀ hs]; linarith⟩
  refine ⟨by norm_num, ?_⟩
  simp only [List.forall_mem_cons, List.not_mem_nil, IsEmpty.forall_iff, forall_const, and_true]
  refine ⟨?_, ?_, ?_, ?_, ?_, ?_, ?_, ?_⟩ <;> apply key <;> norm_num only <;> linarith [r1.1, r1.2, r2.1, r2.2, r3.1, r3.2]

theorem U0.regD_default_ir : ∃ m, IRM.init U0.regD (IRM.defaultArgs U0.regD) = .ok m ∧ m.FPhys U0.regD IRPar.defaultD ∧
    m.PlainUnits U0.regD := by
  have hself : ∀ (x : ℝ) (u : Units U0), IsFNum U0.regD ⟨FR.fin x, u⟩ u x := by
    intro x u; simp [IsFNum, Qty.toUnit, Qty.magIn]
  have e1 : (Arith.dec 3 1 : FR double) = FR.fin (double.fl 0.3) := by
    simp only [FR.dec_eq]
    have e : ((3 : ℕ) : ℝ) / 10 ^ 1 = 0.3 := by norm_num
    rw [e]
  have e2 : (Arith.dec 4 1 : FR double) = FR.fin (double.fl 0.4) := by
    simp only [FR.dec_eq]
    have e : ((4 : ℕ) : ℝ) / 10 ^ 1 = 0.4 := by norm_num
    rw [e]
  have e3 : (Arith.dec 90 1 : FR double) = FR.fin 9 := by
    simp only [FR.dec_eq]
    have e : ((90 : ℕ) : ℝ) / 10 ^ 1 = ((9 : ℕ) : ℝ) := by norm_num
    rw [e, double_int (by norm_num)]; norm_num
  have e4 : (Arith.dec 4000 1 : FR double) = FR.fin 400 := by
    simp only [FR.dec_eq]
    have e : ((4000 : ℕ) : ℝ) / 10 ^ 1 = ((400 : ℕ) : ℝ) := by norm_num
    rw [e, double_int (by norm_num)]; norm_num
  have e5 : (Arith.dec 10 1 : FR double) = FR.fin 1 := by
    simp only [FR.dec_eq]
    have e : ((10 : ℕ) : ℝ) / 10 ^ 1 = ((1 : ℕ) : ℝ) := by norm_num
    rw [e, double_int (by norm_num)]; norm_num
  have e6 : (Arith.ofNat 1 / Arith.ofNat 12 : FR double) = FR.fin (double.fl (1 / 12)) := by
    simp only [FR.ofNat_eq]
    rw [double_int (by norm_num), double_int (by norm_num), FR.fin_div (by norm_num)]
    norm_num
  refine ⟨IRM.built U0.regD ⟨Arith.dec 3 1, U0.regD.cwm2⟩ ⟨Arith.dec 4 1, U0.regD.cwm2⟩ ⟨Arith.dec 90 1, U0.regD.yr⟩
    ⟨Arith.dec 4000 1, U0.regD.yr⟩ ⟨Arith.dec 10 1, U0.regD.one⟩ ⟨Arith.ofNat 1 / Arith.ofNat 12, U0.regD.yr⟩, ?_, ?_, ?_⟩
  · have hg : (Qty.mk (Arith.dec 90 1 : FR double) U0.regD.yr).ge U0.regD ⟨Arith.dec 4000 1, U0.regD.yr⟩ = .ok false := by
      rw [e3, e4]
      simp only [Qty.ge, if_true]
      have : Arith.le (FR.fin 400 : FR double) (FR.fin 9) = decide ((400 : ℝ) ≤ 9) := by
        show (decide ((400 : ℝ) ≤ 9)) = _
        congr
      rw [this]; norm_num
    refine (IRM.init_good (Or.inl rfl) (Or.inl rfl) (Or.inl rfl) (Or.inl rfl) (Or.inl rfl) (Or.inl rfl)).trans ?_
    rw [hg]
  · rw [e1, e2, e3, e4, e5, e6]
    exact ⟨hself _ _, hself _ _, hself _ _, hself _ _, hself _ _, hself _ _⟩
  · rw [e1, e2, e3, e4, e5, e6]
    exact ⟨rfl, rfl, rfl, rfl, rfl⟩

/-- **C67** (`ImpulseResponseModel()` in double precision).  Whatever the length of the run, under any forcing within
±100 W/m² the run succeeds, the reported temperatures are within 10⁻⁹ K and the heat uptake within 10⁻⁸ W/m² of the exact
response with the parameters the object holds. -/
theorem C67_default_impulse_response {m : IRM U0 (FR double)} (hm : IRM.init U0.regD (IRM.defaultArgs U0.regD) = .ok m)
    {n : ℕ} (hn : n ≠ 0) {d : DArg U0 (FR double)} {F : ℕ → ℝ} (hd : IsFForcing U0.regD d n F) (hF : ∀ i < n, |F i| ≤ 100)
    {T1 T2 U : ℕ → ℝ} (hex : IREq IRPar.defaultD 1 n F T1 T2 U) :
    ∃ T1' T2' T' U', IRM.FProduces U0.regD m d n T1' T2' T' (fseries n U') ∧ ∀ i < n,
      |T1' i - T1 i| ≤ 1 / 10 ^ 9 ∧ |T2' i - T2 i| ≤ 1 / 10 ^ 9 ∧ |T' i - (T1 i + T2 i)| ≤ 1 / 10 ^ 9 ∧
      |U' i - U i| ≤ 1 / 10 ^ 8 := by
  obtain ⟨m', h1, h2, h3⟩ := U0.regD_default_ir
  rw [h1] at hm; cases hm
  obtain ⟨⟨a1, a2⟩, ⟨b1, b2⟩, ⟨c1, c2⟩⟩ := IRPar.defaultD_bounds
  norm_num only at a1 a2 b1 b2 c1 c2
  have hdt : 0 < IRPar.defaultD.dt := by linarith
  have ed1 : IRPar.defaultD.d1 = 9 := rfl
  have ed2 : IRPar.defaultD.d2 = 400 := rfl
  have x1 : IRPar.defaultD.d1 / IRPar.defaultD.dt ≤ 110 := by rw [ed1, div_le_iff₀ hdt]; linarith
  have x2 : IRPar.defaultD.d2 / IRPar.defaultD.dt ≤ 4900 := by rw [ed2, div_le_iff₀ hdt]; linarith
  have y1 : 0 ≤ IRPar.defaultD.d1 / IRPar.defaultD.dt := by rw [ed1]; positivity
  have y2 : 0 ≤ IRPar.defaultD.d2 / IRPar.defaultD.dt := by rw [ed2]; positivity
  have hone : double.fl 1 = 1 := by have := double_int (n := 1) (by norm_num); rwa [Nat.cast_one] at this
  have hκ : 32 * (2⁻¹ : ℝ) ^ 53 * (1 + IRPar.defaultD.d2 / IRPar.defaultD.dt) ≤ 1 := by norm_num; linarith
  have hreach : IRM.Reachable U0.regD m := ⟨_, _, [], h1, rfl⟩
  obtain ⟨T1', T2', T', U', hrun, hb⟩ := C67_impulse_response_uptake (double_accurate (10 ^ 20)) (by positivity)
    (by norm_num) (by positivity) hone hreach h2 h3 IRPar.defaultD_ok hdt IRPar.defaultD_inRange
    IRPar.defaultD_conv (by norm_num) hκ hn hd hF hex
  obtain ⟨m'', hs, ho⟩ := hrun
  obtain ⟨S1, S2, S, us, ⟨m3, hs', ho'⟩, hb'⟩ := C67_impulse_response (double_accurate (10 ^ 20)) (by positivity)
    (by norm_num) hreach h2 IRPar.defaultD_ok hdt IRPar.defaultD_inRange (by norm_num) hκ hn hd hF hex.box1 hex.box2 hs
  rw [hs] at hs'; cases hs'
  refine ⟨S1, S2, S, U', ⟨m'', hs, ?_⟩, fun i hi => ?_⟩
  · rw [ho'] at ho
    simp only [List.cons.injEq, Prod.mk.injEq, true_and, and_true] at ho
    rw [ho', ho.2.2.2]
  · obtain ⟨d1, d2, d3⟩ := hb' i hi
    have d4 := hb i hi
    have k1 : 32 * (2⁻¹ : ℝ) ^ 53 * (IRPar.defaultD.q1 * 100) * (1 + IRPar.defaultD.d1 / IRPar.defaultD.dt) ≤ 1 / 10 ^ 10 := by
      calc _ ≤ 32 * (2⁻¹ : ℝ) ^ 53 * (301 / 1000 * 100) * (1 + 110) := by gcongr
        _ ≤ _ := by norm_num
    have k2 : 32 * (2⁻¹ : ℝ) ^ 53 * (IRPar.defaultD.q2 * 100) * (1 + IRPar.defaultD.d2 / IRPar.defaultD.dt) ≤ 8 / 10 ^ 10 := by
      calc _ ≤ 32 * (2⁻¹ : ℝ) ^ 53 * (401 / 1000 * 100) * (1 + 4900) := by gcongr
        _ ≤ _ := by norm_num
    have k3 : 2 * (2⁻¹ : ℝ) ^ 53 * ((IRPar.defaultD.q1 + IRPar.defaultD.q2) * 100) ≤ 1 / 10 ^ 12 := by
      calc _ ≤ 2 * (2⁻¹ : ℝ) ^ 53 * ((301 / 1000 + 401 / 1000) * 100) := by gcongr
        _ ≤ _ := by norm_num
    have k4 : (2⁻¹ : ℝ) ^ 53 * 100 * (59 + 32 * (IRPar.defaultD.d2 / IRPar.defaultD.dt)) ≤ 1 / 10 ^ 8 := by
      calc _ ≤ (2⁻¹ : ℝ) ^ 53 * 100 * (59 + 32 * 4900) := by gcongr
        _ ≤ _ := by norm_num
    refine ⟨d1.trans (k1.trans (by norm_num)), d2.trans (k2.trans (by norm_num)), d3.trans ?_, d4.trans k4⟩
    exact (add_le_add (add_le_add k1 k2) k3).trans (by norm_num)

/-- Concrete case: a thousand months of alternating ±50 W/m². -/
example : ∃ m T1 T2 U, IRM.init U0.regD (IRM.defaultArgs U0.regD) = .ok m ∧
    IsFForcing U0.regD (.qty ⟨1, fseries 1000 fun i => 50 * (-1) ^ i⟩ U0.regD.wm2) 1000 (fun i => 50 * (-1) ^ i) ∧
    (∀ i < 1000, |(50 * (-1) ^ i : ℝ)| ≤ 100) ∧ IREq IRPar.defaultD 1 1000 (fun i => 50 * (-1) ^ i) T1 T2 U := by
  obtain ⟨m, h1, -, -⟩ := U0.regD_default_ir
  have hf : ∀ n, IsFForcing U0.regD (.qty ⟨1, fseries n fun i => 50 * (-1) ^ i⟩ U0.regD.wm2) n (fun i => 50 * (-1) ^ i) := by
    refine fun n => ⟨_, _, rfl, fseries_length _ _, fun i hi => ?_⟩
    have : (fseries n fun i => 50 * (-1) ^ i : List (FR double))[i] = FR.fin (50 * (-1) ^ i) := by simp [fseries]
    rw [this]
    exact ⟨by simp [IsFNum, Qty.toUnit, Qty.magIn], rfl⟩
  have hF : ∀ i : ℕ, |(50 * (-1) ^ i : ℝ)| ≤ 100 := fun i => by rw [abs_mul, abs_pow]; norm_num
  exact ⟨m, _, _, _, h1, hf 1000, fun i _ => hF i, IRPar.sol_eq IRPar.defaultD 1 1000 _⟩

end TwoLayer
