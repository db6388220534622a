import Verif.Props.Accuracy
import Verif.Props.Rounding

/-!
# C88: what a run in floating-point arithmetic says about the differential equations

Time-step error (C66) and rounding error (C67) together.  `TwoLayerForced`, `BoxForced`, `Samples` are in
`Spec/Accuracy.lean`, `FR r`, `Rounding.Accurate`, `double`, `FPhys`, `FProduces` in `Spec/Rounding.lean`.
-/

set_option linter.unusedSimpArgs false
set_option linter.unusedSectionVars false

namespace TwoLayer
section
variable {N : Type} [Fintype N] [DecidableEq N] {r : Rounding} {R : Registry N (FR r)}

private theorem tri {a b c x y : ℝ} (h1 : |a - b| ≤ x) (h2 : |b - c| ≤ y) : |a - c| ≤ x + y := by
  calc |a - c| = |(a - b) + (b - c)| := by congr 1; ring
    _ ≤ |a - b| + |b - c| := abs_add_le _ _
    _ ≤ _ := add_le_add h1 h2

/-- **C88** (two-layer).  A run in rounded arithmetic, of any length: the reported upper temperature is within the
time-step error plus the rounding error of the solution of the differential equations, neither of which grows with the
number of steps. -/
theorem C88_two_layer (D : R.Dimensional) {u μ Ω K : ℝ} (hr : r.Accurate u μ Ω) (hu : 0 ≤ u) (hu1 : u ≤ 1 / 100)
    {m : TLM N (FR r)} (hm : TLM.Reachable R m) {p : TLPar} (hp : m.FPhys R p) (hpos : p.Pos) (hres : p.Resolved)
    (ha : p.a = 0) (hdt : p.dt ≤ p.tau1) (hin : p.InRange K μ Ω) (hK : 0 ≤ K) (hκ : 48 * u * p.memory ≤ 1)
    {d : DArg N (FR r)} {n : ℕ} (hn : n ≠ 0) {F : ℕ → ℝ} (hd : IsFForcing R d n F) (hF : ∀ i < n, |F i| ≤ p.l * K)
    {δ : ℝ} (hδ : 0 ≤ δ) {f x xD : ℝ → ℝ} (hf : Samples F f p.dt (n - 1) δ) (hx : TwoLayerForced p (n - 1) f x xD) :
    ∃ T TD U, TLM.FProduces R m d n T TD U ∧ ∀ i < n, |T i - x (i * p.dt)| ≤
      48 * u * K * ((p.C + p.e * p.D) / (p.dt * p.l)) + (p.dt * (p.l * K) / p.C + δ / p.l) := by
  obtain ⟨T, TD, U, hrun, hb⟩ := C67_two_layer D hr hu hu1 hm hp hpos hres ha hin hK hκ hn hd hF (TLPar.sol_eq hpos.ok n F)
  refine ⟨T, TD, U, hrun, fun i hi => tri (hb i hi).1 ?_⟩
  exact (TLPar.accuracy hpos ha hdt (n := n - 1) (fun j hj => hF j (by omega)) (by have := hpos.l; positivity) hδ hx hf i
    (by omega)).1

/-- **C88** (impulse response).  There is no time-step error here, only the variation of the forcing within a step and
rounding. -/
theorem C88_impulse_response {u μ Ω M : ℝ} (hr : r.Accurate u μ Ω) (hu : 0 ≤ u) (hu1 : u ≤ 1 / 100)
    {m : IRM N (FR r)} (hm : IRM.Reachable R m) {p : IRPar} (hp : m.FPhys R p) (hok : p.Ok) (hdt : 0 < p.dt)
    (hin : p.InRange M μ Ω) (hM : 0 ≤ M) (hκ : 32 * u * (1 + p.d2 / p.dt) ≤ 1) {d : DArg N (FR r)} {n : ℕ}
    (hn : n ≠ 0) {F : ℕ → ℝ} (hd : IsFForcing R d n F) (hF : ∀ i < n, |F i| ≤ M)
    {m' : IRM N (FR r)} (hrun : IRM.simulate R d m = (m', .ok ()))
    {δ : ℝ} (hδ : 0 ≤ δ) {f y1 y2 : ℝ → ℝ} (hf : Samples F f p.dt (n - 1) δ)
    (h1 : BoxForced p.q1 p.d1 p.dt (n - 1) f y1) (h2 : BoxForced p.q2 p.d2 p.dt (n - 1) f y2) :
    ∃ T1 T2 T us, IRM.FProduces R m d n T1 T2 T us ∧ ∀ i < n,
      |T1 i - y1 (i * p.dt)| ≤ 32 * u * (p.q1 * M) * (1 + p.d1 / p.dt) + p.q1 * δ ∧
      |T2 i - y2 (i * p.dt)| ≤ 32 * u * (p.q2 * M) * (1 + p.d2 / p.dt) + p.q2 * δ ∧
      |T i - (y1 (i * p.dt) + y2 (i * p.dt))| ≤ 32 * u * (p.q1 * M) * (1 + p.d1 / p.dt) +
        32 * u * (p.q2 * M) * (1 + p.d2 / p.dt) + 2 * u * ((p.q1 + p.q2) * M) + (p.q1 + p.q2) * δ := by
  obtain ⟨T1, T2, T, us, hpr, hb⟩ := C67_impulse_response hr hu hu1 hm hp hok hdt hin hM hκ hn hd hF
    (boxSol_eq p.q1 p.d1 p.dt n F) (boxSol_eq p.q2 p.d2 p.dt n F) hrun
  refine ⟨T1, T2, T, us, hpr, fun i hi => ?_⟩
  obtain ⟨b1, b2, b3⟩ := hb i hi
  have a1 := h1.sampled hok.d1 hdt hok.q1.le hδ hf i (by omega)
  have a2 := h2.sampled (hok.d1.trans hok.d2) hdt hok.q2.le hδ hf i (by omega)
  rw [abs_sub_comm] at a1 a2
  refine ⟨tri b1 a1, tri b2 a2, tri b3 ?_⟩
  calc |boxSol p.q1 p.d1 p.dt F i + boxSol p.q2 p.d2 p.dt F i - (y1 (i * p.dt) + y2 (i * p.dt))|
      = |(boxSol p.q1 p.d1 p.dt F i - y1 (i * p.dt)) + (boxSol p.q2 p.d2 p.dt F i - y2 (i * p.dt))| := by congr 1; ring
    _ ≤ _ := (abs_add_le _ _).trans (add_le_add a1 a2)
    _ = _ := by ring
end

theorem TLPar.defaultD_dt_le : TLPar.defaultD.dt ≤ TLPar.defaultD.tau1 := by
  have hr := TLPar.defaultD_pos.rates
  have t1 := TLPar.defaultD_pos.tau1_pos
  have t2 := TLPar.defaultD_pos.tau2_pos
  have h2 : 0 < 1 / TLPar.defaultD.tau2 := by positivity
  have hb : (TLPar.defaultD.l + TLPar.defaultD.e * TLPar.defaultD.h) / TLPar.defaultD.C + TLPar.defaultD.h / TLPar.defaultD.D ≤
      1 / TLPar.defaultD.dt := by
    obtain ⟨-, l2⟩ := TLPar.defaultD_l
    obtain ⟨-, k2⟩ := TLPar.defaultD_h
    show (TLPar.defaultD.l + 1 * TLPar.defaultD.h) / 209050000 + TLPar.defaultD.h / 5017200000 ≤ 1 / 31557600
    norm_num at *
    linarith
  have h1 : 1 / TLPar.defaultD.tau1 ≤ 1 / TLPar.defaultD.dt := by linarith
  exact (one_div_le_one_div t1 TLPar.defaultD_pos.dt).mp h1

/-- **C88** (`TwoLayerModel()` in double precision).  Whatever the length of the run, under any forcing within ±M ≤ 100 W/m²
that stays within `δ` of the driver value during each year, the reported surface temperature is within
`0.151 M + δ/1.24 + 10⁻⁹` K of the solution of the differential equations. -/
theorem C88_default {m : TLM U0 (FR double)} (hm : TLM.init U0.regD (TLM.defaultArgs U0.regD) = .ok m) {n : ℕ} (hn : n ≠ 0)
    {d : DArg U0 (FR double)} {F : ℕ → ℝ} (hd : IsFForcing U0.regD d n F) {M δ : ℝ} (hF : ∀ i < n, |F i| ≤ M) (hM : M ≤ 100)
    (hδ : 0 ≤ δ) {f x xD : ℝ → ℝ} (hf : Samples F f TLPar.defaultD.dt (n - 1) δ)
    (hx : TwoLayerForced TLPar.defaultD (n - 1) f x xD) :
    ∃ T TD U, TLM.FProduces U0.regD m d n T TD U ∧ ∀ i < n,
      |T i - x (i * 31557600)| ≤ 1 / 10 ^ 9 + (0.151 * M + δ / 1.24) := by
  obtain ⟨T, TD, U, hrun, hb⟩ := C67_default hm hn hd (fun i hi => (hF i hi).trans hM)
    (TLPar.sol_eq TLPar.defaultD_pos.ok n F)
  refine ⟨T, TD, U, hrun, fun i hi => tri (hb i hi).1 ?_⟩
  have hM0 : 0 ≤ M := (abs_nonneg _).trans (hF 0 (by omega))
  have := (TLPar.accuracy TLPar.defaultD_pos rfl TLPar.defaultD_dt_le (n := n - 1) (fun j hj => hF j (by omega)) hM0 hδ hx hf i
    (by omega)).1
  refine this.trans (add_le_add ?_ ?_)
  · show 31557600 * M / 209050000 ≤ 0.151 * M
    rw [div_le_iff₀ (by norm_num)]
    norm_num; linarith
  · exact div_le_div_of_nonneg_left hδ (by norm_num) TLPar.defaultD_l.1

/-- Concrete case: 200 years of the smooth forcing that warms the deep ocean of the default model along `t ↦ (t/10¹⁰)²`,
sampled once a year. -/
example : ∃ (f x xD : ℝ → ℝ) (m : TLM U0 (FR double)) (d : DArg U0 (FR double)),
    TLM.init U0.regD (TLM.defaultArgs U0.regD) = .ok m ∧ xD 10000000000 = 1 ∧
    IsFForcing U0.regD d 200 (fun k => f (k * TLPar.defaultD.dt)) ∧
    (∀ i < 200, |f ((i : ℕ) * TLPar.defaultD.dt)| ≤ 100) ∧
    Samples (fun k => f (k * TLPar.defaultD.dt)) f TLPar.defaultD.dt 199 100 ∧
    TwoLayerForced TLPar.defaultD 199 f x xD := by
  have hx : ∀ t : ℝ, HasDerivAt (fun t : ℝ => (t / 10000000000) ^ 2) (2 * t / 10000000000 ^ 2) t := fun t => by
    have := ((hasDerivAt_id t).div_const 10000000000).pow 2
    refine this.congr_deriv ?_
    simp; ring
  have hv : ∀ t : ℝ, HasDerivAt (fun t : ℝ => 2 * t / 10000000000 ^ 2) (2 / 10000000000 ^ 2) t := fun t => by
    have := ((hasDerivAt_id t).const_mul 2).div_const (10000000000 ^ 2)
    refine this.congr_deriv ?_
    simp
  have hs := TwoLayerForced.of_lower TLPar.defaultD_pos 199 hx hv (by norm_num) (by norm_num)
  obtain ⟨m, h1, h2⟩ := U0.regD_default
  set f : ℝ → ℝ := fun t => TLPar.defaultD.C * (2 * t / 10000000000 ^ 2 + TLPar.defaultD.D / TLPar.defaultD.h * (2 / 10000000000 ^ 2)) +
      TLPar.defaultD.l * ((t / 10000000000) ^ 2 + TLPar.defaultD.D / TLPar.defaultD.h * (2 * t / 10000000000 ^ 2)) +
      TLPar.defaultD.e * TLPar.defaultD.h * (TLPar.defaultD.D / TLPar.defaultD.h * (2 * t / 10000000000 ^ 2)) with hf
  have hb : ∀ t, 0 ≤ t → t ≤ 200 * 31557600 → 0 ≤ f t ∧ f t ≤ 50 := by
    intro t h0 h1
    obtain ⟨l1, l2⟩ := TLPar.defaultD_l
    obtain ⟨k1, k2⟩ := TLPar.defaultD_h
    have hl : 0 < TLPar.defaultD.l := TLPar.defaultD_pos.l
    have hh : 0 < TLPar.defaultD.h := TLPar.defaultD_pos.h
    have hc : TLPar.defaultD.h * (TLPar.defaultD.D / TLPar.defaultD.h * (2 * t / 10000000000 ^ 2)) =
      5017200000 * (2 * t / 10000000000 ^ 2) := by
      show TLPar.defaultD.h * (5017200000 / TLPar.defaultD.h * _) = _
      field_simp
    have hq : TLPar.defaultD.D / TLPar.defaultD.h ≤ 6400000000 := by
      show 5017200000 / TLPar.defaultD.h ≤ 6400000000
      rw [div_le_iff₀ hh]; norm_num at *; linarith
    have hq0 : 0 ≤ TLPar.defaultD.D / TLPar.defaultD.h := by
      show 0 ≤ 5017200000 / TLPar.defaultD.h
      positivity
    have e : f t = 209050000 * (2 * t / 10000000000 ^ 2 + TLPar.defaultD.D / TLPar.defaultD.h * (2 / 10000000000 ^ 2)) +
      TLPar.defaultD.l * ((t / 10000000000) ^ 2 + TLPar.defaultD.D / TLPar.defaultD.h * (2 * t / 10000000000 ^ 2)) +
      5017200000 * (2 * t / 10000000000 ^ 2) := by
      rw [hf, ← hc]
      show 209050000 * _ + _ + 1 * _ * _ = _
      ring
    rw [e]
    have t1 : t / 10000000000 ≤ 0.7 := by rw [div_le_iff₀ (by norm_num)]; norm_num at *; linarith
    have t0 : 0 ≤ t / 10000000000 := by positivity
    have t2 : (t / 10000000000) ^ 2 ≤ 0.49 := by nlinarith
    constructor
    · positivity
    · have hA : TLPar.defaultD.D / TLPar.defaultD.h * (2 * t / 10000000000 ^ 2) ≤ 6400000000 * (2 * t / 10000000000 ^ 2) := by gcongr
      have hB : 6400000000 * (2 * t / 10000000000 ^ 2) ≤ 0.9 := by norm_num at *; linarith
      have hC : TLPar.defaultD.l * ((t / 10000000000) ^ 2 + TLPar.defaultD.D / TLPar.defaultD.h * (2 * t / 10000000000 ^ 2)) ≤
          1.25 * (0.49 + 0.9) := by
        have : 0 ≤ (t / 10000000000) ^ 2 + TLPar.defaultD.D / TLPar.defaultD.h * (2 * t / 10000000000 ^ 2) := by positivity
        have h5 : (t / 10000000000) ^ 2 + TLPar.defaultD.D / TLPar.defaultD.h * (2 * t / 10000000000 ^ 2) ≤ 0.49 + 0.9 :=
          add_le_add t2 (hA.trans hB)
        exact mul_le_mul l2 h5 this (by norm_num)
      have hD : TLPar.defaultD.D / TLPar.defaultD.h * (2 / 10000000000 ^ 2) ≤ 6400000000 * (2 / 10000000000 ^ 2) := by gcongr
      norm_num at *
      linarith
  have et : TLPar.defaultD.dt = 31557600 := rfl
  refine ⟨f, _, _, m, .qty ⟨1, fseries 200 fun k => f (k * TLPar.defaultD.dt)⟩ U0.regD.wm2, h1, by norm_num, ?_, ?_, ?_, hs⟩
  · refine ⟨_, _, rfl, fseries_length _ _, fun i hi => ?_⟩
    have : (fseries 200 fun k => f (k * TLPar.defaultD.dt) : List (FR double))[i] = FR.fin (f (i * TLPar.defaultD.dt)) := by
      simp [fseries]
    rw [this]
    exact ⟨by simp [IsFNum, Qty.toUnit, Qty.magIn], rfl⟩
  · intro i hi
    have hi' : (i : ℝ) ≤ 200 := by exact_mod_cast hi.le
    obtain ⟨a, b⟩ := hb (i * TLPar.defaultD.dt) (by rw [et]; positivity) (by rw [et]; gcongr)
    rw [abs_le]; exact ⟨by linarith, by linarith⟩
  · intro k hk t ht
    have hk' : (k : ℝ) + 1 ≤ 200 := by exact_mod_cast (by omega : k + 1 ≤ 200)
    obtain ⟨t1, t2⟩ := ht
    rw [et] at t1 t2 ⊢
    have hk0 : 0 ≤ (k : ℝ) * 31557600 := by positivity
    have hk2 : ((k : ℝ) + 1) * 31557600 ≤ 200 * 31557600 := by gcongr
    obtain ⟨a, b⟩ := hb t (by linarith) (by linarith)
    obtain ⟨a', b'⟩ := hb (k * 31557600) hk0 (by linarith)
    rw [abs_le]; constructor <;> linarith

end TwoLayer
