import Verif.Proofs.Exact

/-! # Exact arithmetic: an impulse response run is the solution of the box equations -/

set_option linter.unusedSimpArgs false
set_option linter.unusedSectionVars false

namespace TwoLayer

/-! ## Scaling of the Geoffroy formulas -/
namespace Geo
variable {C D l e h : ℝ} {r s : ℝ}

theorem bStar_scale (hr : r ≠ 0) (hC : C ≠ 0) (hD : D ≠ 0) :
    bStar (r * C) (r * D) (s * l) e (s * h) = s / r * bStar C D l e h := by
  unfold bStar; field_simp

theorem b_scale (hr : r ≠ 0) (hC : C ≠ 0) (hD : D ≠ 0) :
    b (r * C) (r * D) (s * l) e (s * h) = s / r * b C D l e h := by
  unfold b; field_simp

theorem delta_scale (hr : r ≠ 0) (hC : C ≠ 0) (hD : D ≠ 0) :
    delta (r * C) (r * D) (s * l) e (s * h) = (s / r) ^ 2 * delta C D l e h := by
  unfold delta; rw [b_scale hr hC hD]; field_simp

theorem phi1_scale (hr : 0 < r) (hs : 0 < s) (hC : C ≠ 0) (hD : D ≠ 0) (he : e ≠ 0) (hh : h ≠ 0) :
    phi1 (r * C) (r * D) (s * l) e (s * h) = phi1 C D l e h := by
  unfold phi1
  rw [bStar_scale hr.ne' hC hD, delta_scale hr.ne' hC hD, Real.sqrt_mul (by positivity), Real.sqrt_sq (by positivity)]
  field_simp

theorem phi2_scale (hr : 0 < r) (hs : 0 < s) (hC : C ≠ 0) (hD : D ≠ 0) (he : e ≠ 0) (hh : h ≠ 0) :
    phi2 (r * C) (r * D) (s * l) e (s * h) = phi2 C D l e h := by
  unfold phi2
  rw [bStar_scale hr.ne' hC hD, delta_scale hr.ne' hC hD, Real.sqrt_mul (by positivity), Real.sqrt_sq (by positivity)]
  field_simp

theorem tau1_scale (hr : 0 < r) (hs : 0 < s) (hC : C ≠ 0) (hD : D ≠ 0) (hl : l ≠ 0) (hh : h ≠ 0) :
    tau1 (r * C) (r * D) (s * l) e (s * h) = r / s * tau1 C D l e h := by
  unfold tau1
  rw [b_scale hr.ne' hC hD, delta_scale hr.ne' hC hD, Real.sqrt_mul (by positivity), Real.sqrt_sq (by positivity)]
  field_simp

theorem tau2_scale (hr : 0 < r) (hs : 0 < s) (hC : C ≠ 0) (hD : D ≠ 0) (hl : l ≠ 0) (hh : h ≠ 0) :
    tau2 (r * C) (r * D) (s * l) e (s * h) = r / s * tau2 C D l e h := by
  unfold tau2
  rw [b_scale hr.ne' hC hD, delta_scale hr.ne' hC hD, Real.sqrt_mul (by positivity), Real.sqrt_sq (by positivity)]
  field_simp

theorem q1_scale (hr : 0 < r) (hs : 0 < s) (hC : C ≠ 0) (hD : D ≠ 0) (hl : l ≠ 0) (he : e ≠ 0) (hh : h ≠ 0) :
    q1 (r * C) (r * D) (s * l) e (s * h) = q1 C D l e h / s := by
  unfold q1
  rw [tau1_scale hr hs hC hD hl hh, phi1_scale hr hs hC hD he hh, phi2_scale hr hs hC hD he hh]
  by_cases hp : phi2 C D l e h - phi1 C D l e h = 0
  · rw [hp]; simp
  · field_simp

theorem q2_scale (hr : 0 < r) (hs : 0 < s) (hC : C ≠ 0) (hD : D ≠ 0) (hl : l ≠ 0) (he : e ≠ 0) (hh : h ≠ 0) :
    q2 (r * C) (r * D) (s * l) e (s * h) = q2 C D l e h / s := by
  unfold q2
  rw [tau2_scale hr hs hC hD hl hh, phi1_scale hr hs hC hD he hh, phi2_scale hr hs hC hD he hh]
  by_cases hp : phi2 C D l e h - phi1 C D l e h = 0
  · rw [hp]; simp
  · field_simp

variable {q1 q2 d1 d2 : ℝ}
theorem invL_scale (hr : r ≠ 0) : invL (q1 * r) (q2 * r) = invL q1 q2 / r := by
  unfold invL
  rw [← add_mul]
  field_simp
theorem invC_scale (hr : r ≠ 0) (hs : s ≠ 0) : invC (q1 * r) (q2 * r) (d1 * s) (d2 * s) = s / r * invC q1 q2 d1 d2 := by
  unfold invC
  rw [show q1 * r * (d2 * s) + q2 * r * (d1 * s) = (q1 * d2 + q2 * d1) * (r * s) by ring]
  field_simp
theorem invD_scale (hr : r ≠ 0) (hs : s ≠ 0) :
    invD (q1 * r) (q2 * r) (d1 * s) (d2 * s) e = s / r * invD q1 q2 d1 d2 e := by
  unfold invD
  rw [invL_scale hr, invC_scale hr hs]
  field_simp
theorem invH_scale (hr : r ≠ 0) (hs : s ≠ 0) :
    invH (q1 * r) (q2 * r) (d1 * s) (d2 * s) e = invH q1 q2 d1 d2 e / r := by
  unfold invH
  rw [invL_scale hr, invD_scale hr hs]
  rw [show d1 * s * (invL q1 q2 / r * (q2 * r)) + d2 * s * (invL q1 q2 / r * (q1 * r)) =
    (d1 * (invL q1 q2 * q2) + d2 * (invL q1 q2 * q1)) * s by field_simp]
  field_simp
end Geo

/-! ## Boxes -/

/-- solution of one box equation -/
noncomputable def boxSol (q d dt : ℝ) (F : ℕ → ℝ) : ℕ → ℝ
  | 0 => 0
  | i + 1 => q * F i + (boxSol q d dt F i - q * F i) * Real.exp (-(dt / d))

theorem boxSol_eq (q d dt : ℝ) (n : ℕ) (F : ℕ → ℝ) : BoxEq q d dt n F (boxSol q d dt F) :=
  ⟨fun _ => rfl, fun _ _ => rfl⟩

theorem BoxEq.unique {q d dt : ℝ} {n : ℕ} {F T : ℕ → ℝ} (h : BoxEq q d dt n F T) :
    ∀ i < n, T i = boxSol q d dt F i := by
  intro i
  induction i with
  | zero => intro hi; exact h.1 hi
  | succ i ih => intro hi; rw [h.2 i hi, ih (by omega)]; rfl

theorem BoxEq.congr {q d dt : ℝ} {n : ℕ} {F T T' : ℕ → ℝ} (h : BoxEq q d dt n F T)
    (hT : ∀ i < n, T i = T' i) : BoxEq q d dt n F T' := by
  refine ⟨fun h0 => ?_, fun i hi => ?_⟩
  · rw [← hT 0 h0]; exact h.1 h0
  · rw [← hT i (by omega), ← hT (i+1) hi]; exact h.2 i hi

namespace IRPar
variable (p : IRPar) (κ : ℝ) (F : ℕ → ℝ)
/-- box 1 -/
noncomputable def T1 : ℕ → ℝ := boxSol p.q1 p.d1 p.dt F
/-- box 2 -/
noncomputable def T2 : ℕ → ℝ := boxSol p.q2 p.d2 p.dt F
/-- one uptake value -/
noncomputable def uptake (t1 t2 f : ℝ) : ℝ :=
  f - κ * p.l * (t1 + t2) - (p.e - 1) * p.h * ((t1 + t2) - (p.phi1 * t1 + p.phi2 * t2))
/-- heat uptake -/
noncomputable def U : ℕ → ℝ
  | 0 => 0
  | i + 1 => p.uptake κ (p.T1 F i) (p.T2 F i) (F i)

@[simp] theorem T1_zero : p.T1 F 0 = 0 := rfl
@[simp] theorem T2_zero : p.T2 F 0 = 0 := rfl
@[simp] theorem U_zero : p.U κ F 0 = 0 := rfl
theorem T1_succ (i : ℕ) : p.T1 F (i + 1) = p.q1 * F i + (p.T1 F i - p.q1 * F i) * Real.exp (-(p.dt / p.d1)) := rfl
theorem T2_succ (i : ℕ) : p.T2 F (i + 1) = p.q2 * F i + (p.T2 F i - p.q2 * F i) * Real.exp (-(p.dt / p.d2)) := rfl
theorem U_succ (i : ℕ) : p.U κ F (i + 1) = F i - κ * p.l * (p.T1 F i + p.T2 F i) -
  (p.e - 1) * p.h * ((p.T1 F i + p.T2 F i) - (p.phi1 * p.T1 F i + p.phi2 * p.T2 F i)) := rfl

theorem Ok.d2pos {p : IRPar} (h : p.Ok) : 0 < p.d2 := h.d1.trans h.d2

theorem Ok.boxes {p : IRPar} (h : p.Ok) : p.Boxes := ⟨h.q1, h.q2, h.d1, h.d2pos, h.d2.ne, h.e⟩

theorem U_eq (n : ℕ) : IRUptakeEq p κ n F (p.T1 F) (p.T2 F) (p.U κ F) := ⟨fun _ => rfl, fun _ _ => rfl⟩
end IRPar

theorem IREq.unique {p : IRPar} {κ : ℝ} {n : ℕ} {F T1 T2 U : ℕ → ℝ} (h : IREq p κ n F T1 T2 U) :
    ∀ i < n, T1 i = p.T1 F i ∧ T2 i = p.T2 F i ∧ U i = p.U κ F i := by
  intro i hi
  refine ⟨h.box1.unique i hi, h.box2.unique i hi, ?_⟩
  cases i with
  | zero => exact h.uptake.1 hi
  | succ i =>
    rw [h.uptake.2 i hi, IRPar.U_succ, h.box1.unique i (by omega), h.box2.unique i (by omega)]
    rfl

theorem IRPar.sol_eq (p : IRPar) (κ : ℝ) (n : ℕ) (F : ℕ → ℝ) : IREq p κ n F (p.T1 F) (p.T2 F) (p.U κ F) :=
  ⟨boxSol_eq _ _ _ _ _, boxSol_eq _ _ _ _ _, p.U_eq κ F n⟩

theorem IREq.congr {p : IRPar} {κ : ℝ} {n : ℕ} {F T1 T2 U T1' T2' U' : ℕ → ℝ} (h : IREq p κ n F T1 T2 U)
    (h1 : ∀ i < n, T1 i = T1' i) (h2 : ∀ i < n, T2 i = T2' i) (hU : ∀ i < n, U i = U' i) :
    IREq p κ n F T1' T2' U' := by
  refine ⟨h.box1.congr h1, h.box2.congr h2, fun h0 => ?_, fun i hi => ?_⟩
  · rw [← hU 0 h0]; exact h.uptake.1 h0
  · rw [← hU (i+1) hi, ← h1 i (by omega), ← h2 i (by omega)]; exact h.uptake.2 i hi

variable {N : Type} [Fintype N] [DecidableEq N] {R : Registry N XR}

theorem calcNextTemp_fin {dt t q d f : ℝ} (hd : d ≠ 0) :
    IRM.calcNextTemp (XR.fin dt) (XR.fin t) (XR.fin q) (XR.fin d) (XR.fin f) =
      .ok (XR.fin (q * f + (t - q * f) * Real.exp (-(dt / d)))) := by
  have h : -dt / d = -(dt / d) := neg_div d dt
  simp [IRM.calcNextTemp, pyDiv, hd, bind, Except.bind, pure, Except.pure, h]
  ring

section
variable (L : R.Lawful)
include L

theorem IRM.nextRndt' {m : IRM N XR} {p : IRPar} (hc : m.Coherent R) (hp : m.Phys R p) (hok : p.Boxes) {κ : ℝ}
    (hκ : IsNum R ⟨.fin 1, m.q1.unit⟩ R.cwm2 κ) (t1 t2 f : ℝ) :
    (IRM.UnitsOk R m p.e → m.calcNextRndt R (.fin t1) (.fin t2) (.fin f) m.efficacyMag =
      .ok (.fin (p.uptake κ t1 t2 f))) ∧
    (¬ IRM.UnitsOk R m p.e → m.calcNextRndt R (.fin t1) (.fin t2) (.fin f) m.efficacyMag =
      .error (.assertion "units should have come out as W/m^2")) := by
  obtain ⟨a1, b1⟩ := L.isNum_iff.mp hp.q1
  obtain ⟨a2, b2⟩ := L.isNum_iff.mp hp.q2
  obtain ⟨a3, b3⟩ := L.isNum_iff.mp hp.d1
  obtain ⟨a4, b4⟩ := L.isNum_iff.mp hp.d2
  obtain ⟨a5, b5⟩ := L.isNum_iff.mp hp.efficacy
  have hs := L.sc_pos R.cwm2
  have hy := L.sc_pos R.yr
  have ho : L.sc R.one = 1 := L.sc_zero
  have hdo : L.dm R.one = 0 := L.dm_zero
  have hem : m.efficacyMag = .fin p.e := by rw [hc.efficacyMag]; exact hp.efficacy.magIn
  rw [ho, mul_one] at a5
  have key := L.calcNextRndt_quant m m.q1.unit m.q2.unit m.d1.unit m.d2.unit m.efficacy.unit (b2.trans b1.symm)
    (b4.trans b3.symm) (b5.trans hdo) (p.q1 * L.sc R.cwm2) (p.q2 * L.sc R.cwm2) (p.d1 * L.sc R.yr)
    (p.d2 * L.sc R.yr) p.e (mul_pos hok.q1 hs) (mul_pos hok.q2 hs) (mul_pos hok.d1 hy)
    (mul_pos hok.d2 hy) (fun h => hok.ne (mul_right_cancel₀ hy.ne' h)) hok.e a1 a2 a3 a4 a5 hem t1 t2 f
  simp only at key
  rw [Geo.invL_scale hs.ne', Geo.invH_scale hs.ne' hy.ne', Geo.invC_scale hs.ne' hy.ne',
    Geo.invD_scale hs.ne' hy.ne'] at key
  have hL := Geo.invL_pos hok.q1 hok.q2
  have hC := Geo.invC_pos' hok.q1 hok.q2 hok.d1 hok.d2
  have hD := Geo.invD_pos' hok.q1 hok.q2 hok.d1 hok.d2 hok.ne hok.e
  have hH := Geo.invH_pos' hok.q1 hok.q2 hok.d1 hok.d2 hok.ne hok.e
  have hrs : 0 < L.sc R.yr / L.sc R.cwm2 := by positivity
  have hinv : 0 < (L.sc R.cwm2)⁻¹ := by positivity
  have hp1 : Geo.phi1 (L.sc R.yr / L.sc R.cwm2 * Geo.invC p.q1 p.q2 p.d1 p.d2)
      (L.sc R.yr / L.sc R.cwm2 * Geo.invD p.q1 p.q2 p.d1 p.d2 p.e) (Geo.invL p.q1 p.q2 / L.sc R.cwm2) p.e
      (Geo.invH p.q1 p.q2 p.d1 p.d2 p.e / L.sc R.cwm2) = p.phi1 := by
    rw [div_eq_inv_mul (Geo.invL _ _), div_eq_inv_mul (Geo.invH _ _ _ _ _),
      Geo.phi1_scale hrs hinv hC.ne' hD.ne' hok.e.ne' hH.ne']
    rfl
  have hp2 : Geo.phi2 (L.sc R.yr / L.sc R.cwm2 * Geo.invC p.q1 p.q2 p.d1 p.d2)
      (L.sc R.yr / L.sc R.cwm2 * Geo.invD p.q1 p.q2 p.d1 p.d2 p.e) (Geo.invL p.q1 p.q2 / L.sc R.cwm2) p.e
      (Geo.invH p.q1 p.q2 p.d1 p.d2 p.e / L.sc R.cwm2) = p.phi2 := by
    rw [div_eq_inv_mul (Geo.invL _ _), div_eq_inv_mul (Geo.invH _ _ _ _ _),
      Geo.phi2_scale hrs hinv hC.ne' hD.ne' hok.e.ne' hH.ne']
    rfl
  rw [hp1, hp2] at key
  have hwc : L.sc R.cwm2 * L.sc R.wm2c = 1 := by
    have : R.cwm2 + R.wm2c = 0 := by
      simp only [Registry.cwm2, Registry.wm2c]; abel
    rw [← L.sc_add, this, L.sc_zero]
  have hκ' : κ = L.sc m.q1.unit / L.sc R.cwm2 := by
    have h1 := (L.isNum_iff.mp hκ).1
    have h2 := congrArg Qty.mag h1
    simp only [Registry.Lawful.quant_mag, XR.fin_inj] at h2
    have := L.sc_ne m.q1.unit
    field_simp at h2 ⊢
    linarith
  have e1 : Geo.invL p.q1 p.q2 / L.sc R.cwm2 / L.sc (-m.q1.unit) = κ * p.l := by
    rw [L.sc_neg, hκ']
    have := L.sc_ne m.q1.unit
    unfold IRPar.l
    field_simp
  have e2 : Geo.invH p.q1 p.q2 p.d1 p.d2 p.e / L.sc R.cwm2 / L.sc R.wm2c = p.h := by
    rw [div_div, hwc, div_one]; rfl
  rw [e1, e2] at key
  rw [key]
  constructor
  · intro hu
    by_cases he : p.e = 1
    · rw [if_pos he]
      unfold IRPar.uptake
      rw [he]; congr 2; ring
    · rw [if_neg he, if_pos (hu.resolve_left he)]
      unfold IRPar.uptake
      congr 2; ring
  · intro hu
    simp only [IRM.UnitsOk, not_or] at hu
    rw [if_neg hu.1, if_neg hu.2]

theorem IRM.seq_fin' {m : IRM N XR} {p : IRPar} (hc : m.Coherent R) (hp : m.Phys R p) (hok : p.Boxes) {κ : ℝ}
    (hκ : IsNum R ⟨.fin 1, m.q1.unit⟩ R.cwm2 κ) (n : ℕ) (F : ℕ → ℝ) (hu : IRM.UnitsOk R m p.e ∨ n ≤ 1) :
    ∀ i < n, (m.eng R).seq (series n F) i = .ok (.fin (p.T1 F i), .fin (p.T2 F i), .fin (p.U κ F i)) := by
  have e1 : m.core.deltaTMag = .fin p.dt := by rw [hc.core.dtMag]; exact hp.dt.magIn
  have e2 : m.q1Mag = .fin p.q1 := by rw [hc.q1Mag]; exact hp.q1.magIn
  have e3 : m.q2Mag = .fin p.q2 := by rw [hc.q2Mag]; exact hp.q2.magIn
  have e4 : m.d1Mag = .fin p.d1 := by rw [hc.d1Mag]; exact hp.d1.magIn
  have e5 : m.d2Mag = .fin p.d2 := by rw [hc.d2Mag]; exact hp.d2.magIn
  intro i
  induction i with
  | zero => intro _; simp [Eng.seq]
  | succ i ih =>
    intro hi
    simp only [Eng.seq, ih (by omega), getAt, series_getElem? n F i (by omega)]
    simp only [IRM.eng, e1, e2, e3, e4, e5, calcNextTemp_fin hok.d1.ne', calcNextTemp_fin hok.d2.ne',
      (IRM.nextRndt' L hc hp hok hκ (p.T1 F i) (p.T2 F i) (F i)).1 (hu.resolve_right (by omega))]
    rfl

/-- the first step with a wrong unit combination fails -/
theorem IRM.seq_bad' {m : IRM N XR} {p : IRPar} (hc : m.Coherent R) (hp : m.Phys R p) (hok : p.Boxes) {κ : ℝ}
    (hκ : IsNum R ⟨.fin 1, m.q1.unit⟩ R.cwm2 κ) (n : ℕ) (F : ℕ → ℝ) (hu : ¬ IRM.UnitsOk R m p.e) (hn : 1 < n) :
    (m.eng R).seq (series n F) 1 = .error (.assertion "units should have come out as W/m^2") := by
  have e1 : m.core.deltaTMag = .fin p.dt := by rw [hc.core.dtMag]; exact hp.dt.magIn
  have e2 : m.q1Mag = .fin p.q1 := by rw [hc.q1Mag]; exact hp.q1.magIn
  have e3 : m.q2Mag = .fin p.q2 := by rw [hc.q2Mag]; exact hp.q2.magIn
  have e4 : m.d1Mag = .fin p.d1 := by rw [hc.d1Mag]; exact hp.d1.magIn
  have e5 : m.d2Mag = .fin p.d2 := by rw [hc.d2Mag]; exact hp.d2.magIn
  have h0 : (m.eng R).seq (series n F) 0 = .ok (.fin 0, .fin 0, .fin 0) := by simp [Eng.seq]
  rw [show (1 : ℕ) = 0 + 1 from rfl, Eng.seq, h0]
  simp only [getAt, series_getElem? n F 0 (by omega)]
  simp only [IRM.eng, e1, e2, e3, e4, e5, calcNextTemp_fin hok.d1.ne', calcNextTemp_fin hok.d2.ne',
      (IRM.nextRndt' L hc hp hok hκ 0 0 (F 0)).2 hu]

theorem IRM.produces_sol' {m : IRM N XR} {p : IRPar} (hc : m.Coherent R) (hp : m.Phys R p) (hok : p.Boxes) {κ : ℝ}
    (hκ : IsNum R ⟨.fin 1, m.q1.unit⟩ R.cwm2 κ)
    {d : DArg N XR} {n : ℕ} (hn : n ≠ 0) {F : ℕ → ℝ} (hd : IsForcing R d n F) (hu : IRM.UnitsOk R m p.e ∨ n ≤ 1) :
    IRM.Produces R m d n (p.T1 F) (p.T2 F) (p.U κ F) := by
  obtain ⟨vals, u, rfl, hlen, hg, hmF⟩ := hd.good L
  have hseq := IRM.seq_fin' L hc hp hok hκ n F hu
  have hsim := IRM.simulate_good R m (hg hn)
  obtain ⟨v, hv, hI⟩ := (IRM.stepper R).times_ok (m.ready R vals u) (modelF R vals u) rfl vals.length (by simp)
    (fun i hi => ⟨_, by rw [hmF]; exact hseq i (by omega)⟩)
  refine ⟨_, hsim.trans hv, ?_⟩
  rw [hmF] at hI
  have key : ∀ i < n, v.A[i]? = some (.fin (p.T1 F i)) ∧ v.B[i]? = some (.fin (p.T2 F i)) ∧
      v.C[i]? = some (.fin (p.U κ F i)) := by
    intro i hi
    obtain ⟨a, b, c, h1, h2, h3, h4⟩ := hI.done i (by omega)
    have h1' : (m.eng R).seq (series n F) i = .ok (a, b, c) := h1
    rw [hseq i hi] at h1'
    cases h1'
    exact ⟨h2, h3, h4⟩
  have lA := hI.lA; have lB := hI.lB; have lC := hI.lC
  rw [series_length] at lA lB lC
  have hA := eq_series lA fun i hi => (key i hi).1
  have hB := eq_series lB fun i hi => (key i hi).2.1
  have hC := eq_series lC fun i hi => (key i hi).2.2
  simp only [IRM.outputs, IRM.stepper, IRM.setView]
  rw [hA, hB, hC]
  have hs : List.zipWith (· + ·) (series n (p.T1 F)) (series n (p.T2 F)) = series n fun i => p.T1 F i + p.T2 F i := by
    apply eq_series (by simp [series_length])
    intro i hi
    rw [List.getElem?_zipWith, series_getElem? _ _ _ hi, series_getElem? _ _ _ hi]
    rfl
  rw [hs]

omit L in
theorem IRM.Produces.ext {m : IRM N XR} {d : DArg N XR} {n : ℕ} {T TD U T' TD' U' : ℕ → ℝ}
    (h : IRM.Produces R m d n T TD U) (h' : IRM.Produces R m d n T' TD' U') :
    ∀ i < n, T i = T' i ∧ TD i = TD' i ∧ U i = U' i := by
  obtain ⟨m1, h1, o1⟩ := h
  obtain ⟨m2, h2, o2⟩ := h'
  rw [h1] at h2
  cases h2
  rw [o1] at o2
  simp only [List.cons.injEq, Prod.mk.injEq, true_and, and_true] at o2
  obtain ⟨a, b, -, c⟩ := o2
  intro i hi
  exact ⟨series_inj.mp a i hi, series_inj.mp b i hi, series_inj.mp c i hi⟩

omit L in
theorem IRM.Produces.congr {m : IRM N XR} {d : DArg N XR} {n : ℕ} {T TD U T' TD' U' : ℕ → ℝ}
    (h : IRM.Produces R m d n T TD U) (hh : ∀ i < n, T i = T' i ∧ TD i = TD' i ∧ U i = U' i) :
    IRM.Produces R m d n T' TD' U' := by
  obtain ⟨m1, h1, o1⟩ := h
  refine ⟨m1, h1, ?_⟩
  rw [o1, series_inj.mpr fun i hi => (hh i hi).1, series_inj.mpr fun i hi => (hh i hi).2.1,
    series_inj.mpr fun i hi => (hh i hi).2.2,
    (series_inj (f := fun i => T i + TD i) (g := fun i => T' i + TD' i)).mpr
      fun i hi => by rw [(hh i hi).1, (hh i hi).2.1]]

/-- a run with a wrong unit combination raises AssertionError -/
theorem IRM.simulate_units' {m : IRM N XR} {p : IRPar} (hc : m.Coherent R) (hp : m.Phys R p) (hok : p.Boxes)
    {d : DArg N XR} {n : ℕ} (hn : 1 < n) {F : ℕ → ℝ} (hd : IsForcing R d n F) (hu : ¬ IRM.UnitsOk R m p.e) :
    ∃ m', IRM.simulate R d m = (m', .error (.assertion "units should have come out as W/m^2")) := by
  obtain ⟨vals, u, rfl, hlen, hg, hmF⟩ := hd.good L
  rw [IRM.simulate_good R m (hg (by omega))]
  have hκ : IsNum R ⟨.fin 1, m.q1.unit⟩ R.cwm2 (L.sc m.q1.unit / L.sc R.cwm2) := by
    have h1 := (L.isNum_iff.mp hp.q1).2
    have := L.isNum_quant (w := m.q1.unit) (u := R.cwm2) (v := L.sc m.q1.unit) h1
    rwa [show L.quant m.q1.unit (L.sc m.q1.unit) = ⟨.fin 1, m.q1.unit⟩ by
      simp [Registry.Lawful.quant, L.sc_ne]] at this
  refine (IRM.stepper R).times_error (m.ready R vals u) (modelF R vals u) rfl 1 (by simp; omega) ?_ ?_ vals.length
    (by omega)
  · intro i hi
    obtain rfl : i = 0 := by omega
    exact ⟨_, rfl⟩
  · rw [hmF]
    exact IRM.seq_bad' L hc hp hok hκ n F hu hn

/-- an impulse response run reports exactly the solution of the box and uptake equations -/
theorem IRM.produces_iff' {m : IRM N XR} {p : IRPar} (hc : m.Coherent R) (hp : m.Phys R p) (hok : p.Boxes) {κ : ℝ}
    (hκ : IsNum R ⟨.fin 1, m.q1.unit⟩ R.cwm2 κ)
    {d : DArg N XR} {n : ℕ} (hn : n ≠ 0) {F : ℕ → ℝ} (hd : IsForcing R d n F) (T1 T2 U : ℕ → ℝ) :
    IRM.Produces R m d n T1 T2 U ↔ (IRM.UnitsOk R m p.e ∨ n ≤ 1) ∧ IREq p κ n F T1 T2 U := by
  by_cases hu : IRM.UnitsOk R m p.e ∨ n ≤ 1
  · have hs := IRM.produces_sol' L hc hp hok hκ hn hd hu
    constructor
    · intro h
      have he := hs.ext h
      exact ⟨hu, (p.sol_eq κ n F).congr (fun i hi => (he i hi).1) (fun i hi => (he i hi).2.1)
        (fun i hi => (he i hi).2.2)⟩
    · rintro ⟨-, h⟩
      refine hs.congr fun i hi => ?_
      obtain ⟨a, b, c⟩ := h.unique i hi
      exact ⟨a.symm, b.symm, c.symm⟩
  · constructor
    · rintro ⟨m', hm', -⟩
      simp only [not_or, not_le] at hu
      obtain ⟨m'', h⟩ := IRM.simulate_units' L hc hp hok hu.2 hd hu.1
      rw [hm'] at h; cases h
    · rintro ⟨h, -⟩; exact absurd h hu

theorem IRM.produces_val' {m : IRM N XR} {p : IRPar} (hc : m.Coherent R) (hp : m.Phys R p) (hok : p.Boxes) {κ : ℝ}
    (hκ : IsNum R ⟨.fin 1, m.q1.unit⟩ R.cwm2 κ)
    {d : DArg N XR} {n : ℕ} {F : ℕ → ℝ} (hd : IsForcing R d n F) {T1 T2 U : ℕ → ℝ}
    (h : IRM.Produces R m d n T1 T2 U) : ∀ i < n, T1 i = p.T1 F i ∧ T2 i = p.T2 F i ∧ U i = p.U κ F i := by
  intro i hi
  exact ((IRM.produces_iff' L hc hp hok hκ (by omega) hd T1 T2 U).mp h).2.unique i hi

theorem IRM.produces_sol {m : IRM N XR} {p : IRPar} (hc : m.Coherent R) (hp : m.Phys R p) (hok : p.Ok) {κ : ℝ}
    (hκ : IsNum R ⟨.fin 1, m.q1.unit⟩ R.cwm2 κ)
    {d : DArg N XR} {n : ℕ} (hn : n ≠ 0) {F : ℕ → ℝ} (hd : IsForcing R d n F) (hu : IRM.UnitsOk R m p.e ∨ n ≤ 1) :
    IRM.Produces R m d n (p.T1 F) (p.T2 F) (p.U κ F) := IRM.produces_sol' L hc hp hok.boxes hκ hn hd hu

theorem IRM.simulate_units {m : IRM N XR} {p : IRPar} (hc : m.Coherent R) (hp : m.Phys R p) (hok : p.Ok)
    {d : DArg N XR} {n : ℕ} (hn : 1 < n) {F : ℕ → ℝ} (hd : IsForcing R d n F) (hu : ¬ IRM.UnitsOk R m p.e) :
    ∃ m', IRM.simulate R d m = (m', .error (.assertion "units should have come out as W/m^2")) :=
  IRM.simulate_units' L hc hp hok.boxes hn hd hu

theorem IRM.produces_iff {m : IRM N XR} {p : IRPar} (hc : m.Coherent R) (hp : m.Phys R p) (hok : p.Ok) {κ : ℝ}
    (hκ : IsNum R ⟨.fin 1, m.q1.unit⟩ R.cwm2 κ)
    {d : DArg N XR} {n : ℕ} (hn : n ≠ 0) {F : ℕ → ℝ} (hd : IsForcing R d n F) (T1 T2 U : ℕ → ℝ) :
    IRM.Produces R m d n T1 T2 U ↔ (IRM.UnitsOk R m p.e ∨ n ≤ 1) ∧ IREq p κ n F T1 T2 U :=
  IRM.produces_iff' L hc hp hok.boxes hκ hn hd T1 T2 U

theorem IRM.produces_val {m : IRM N XR} {p : IRPar} (hc : m.Coherent R) (hp : m.Phys R p) (hok : p.Ok) {κ : ℝ}
    (hκ : IsNum R ⟨.fin 1, m.q1.unit⟩ R.cwm2 κ)
    {d : DArg N XR} {n : ℕ} {F : ℕ → ℝ} (hd : IsForcing R d n F) {T1 T2 U : ℕ → ℝ}
    (h : IRM.Produces R m d n T1 T2 U) : ∀ i < n, T1 i = p.T1 F i ∧ T2 i = p.T2 F i ∧ U i = p.U κ F i :=
  IRM.produces_val' L hc hp hok.boxes hκ hd h

/-- one `q1`-unit in K/(W/m²) always exists -/
theorem IRM.kappa {m : IRM N XR} {x : ℝ} (h : IsNum R m.q1 R.cwm2 x) :
    ∃ κ, 0 < κ ∧ IsNum R ⟨.fin 1, m.q1.unit⟩ R.cwm2 κ := by
  refine ⟨L.sc m.q1.unit / L.sc R.cwm2, div_pos (L.sc_pos _) (L.sc_pos _), ?_⟩
  have h1 := (L.isNum_iff.mp h).2
  have := L.isNum_quant (w := m.q1.unit) (u := R.cwm2) (v := L.sc m.q1.unit) h1
  rwa [show L.quant m.q1.unit (L.sc m.q1.unit) = ⟨.fin 1, m.q1.unit⟩ by
    simp [Registry.Lawful.quant, L.sc_ne]] at this
end
end TwoLayer
