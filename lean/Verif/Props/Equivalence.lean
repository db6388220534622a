import Verif.Props.ScenarioExamples
import Verif.Props.Convert

/-!
# C97: the documented equivalence of the two models, through `run_scenarios`

The workflow of
`tests/integration/test_twolayer_impulse_response_equivalence.py`: take a two-layer object, build
`ImpulseResponseModel(**two_layer.get_impulse_response_parameters(), delta_t=…)`, call `run_scenarios` of both on one
frame, compare the returned series.  Conventions as in `Props/Missing.lean` (C60) and `Props/Convert.lean` (C41, C42).
-/

set_option linter.unusedSimpArgs false
set_option linter.unusedSectionVars false

namespace TwoLayer
open Cal
section
variable {N : Type} [Fintype N] [DecidableEq N] {R : Registry N XR} (L : R.Lawful)
include L

/-- `ImpulseResponseModel(**params, delta_t=dt₀)` -/
private theorem built {m : TLM N XR} {p : TLPar} (hp : m.Phys R p) (hpos : p.Pos) (ha : p.a = 0)
    {r : TLM.IRParams N XR} (hr : m.getImpulseResponseParameters R = .ok r) {dt₀ : Qty N XR} {x₀ : ℝ}
    (hdt₀ : IsNum R dt₀ R.yr x₀) {m2 : IRM N XR} (hi : IRM.init R (r.args (.qty dt₀)) = .ok m2) :
    m2.Phys R { p.toIR with dt := x₀ } ∧ IRM.Reachable R m2 ∧ m2.q1.unit = m.dl.unit - m.eta.unit - m.du.unit ∧
      m2.q2.unit = m.dl.unit - m.eta.unit - m.du.unit ∧ m2.efficacy.unit = m.efficacy.unit ∧
      IsNum R r.q1 R.cwm2 p.q1 ∧ IsNum R r.q2 R.cwm2 p.q2 ∧ IsNum R r.d1 R.s p.tau1 ∧ IsNum R r.d2 R.s p.tau2 := by
  obtain ⟨r', hr', hph, u1, u2, u3, s1, s2⟩ := TLM.getIR_phys L hp hpos ha
  rw [hr] at hr'; cases hr'
  obtain ⟨h1, h2⟩ := IRM.init_phys L (p := { p.toIR with dt := x₀ }) hpos.toIR_ok.d2 hph.q1 hph.q2 hph.d1 hph.d2
    hph.efficacy hdt₀
  have h1' := h1
  unfold TLM.IRParams.args at hi
  rw [h1] at hi
  cases hi
  exact ⟨h2, ⟨_, _, [], h1', rfl⟩, u1, u2, u3, hph.q1, hph.q2, s1, s2⟩

/-- **C97** (temperature).  Positive parameters in any units, `a = 0`, step of the frame's axis no longer than the fast
timescale: at every time at which the driver has a value, "Surface Temperature|Upper" of the two-layer model and "Surface
Temperature" of the converted impulse response model are real numbers that differ by at most `dt·M/C`. -/
theorem C97_temperature {m m' : TLM N XR} (hm : TLM.Reachable R m) {p : TLPar} (hp : m.Phys R p) (hpos : p.Pos)
    (ha : p.a = 0) {r : TLM.IRParams N XR} (hr : m.getImpulseResponseParameters R = .ok r) {dt₀ : Qty N XR} {x₀ : ℝ}
    (hdt₀ : IsNum R dt₀ R.yr x₀) {m2 m2' : IRM N XR} (hi : IRM.init R (r.args (.qty dt₀)) = .ok m2)
    {dv : String} {scen out out2 : ScmRun XR} (hrun : runScenarios (TLM.variant R) R dv scen m = (m', .ok out))
    (hrun2 : runScenarios (IRM.variant R) R dv scen m2 = (m2', .ok out2))
    {sel : List (Row XR)} (hsel : Selection dv scen.rows sel) {i : Nat} {s : Row XR} (hs : sel[i]? = some s)
    {a n : Nat} (hn : n ≠ 0) (hpres : PresentOn s.vals a n) {us : String} {u : Units N}
    (hus : s.info.get "unit" = some (.str us)) (hu : R.parse us = some u) {F : ℕ → ℝ}
    (hF : ∀ k < n, ∃ x, s.vals[a + k]? = some x ∧ IsNum R ⟨x, u⟩ R.wm2 (F k)) {M : ℝ} (hM : ∀ k < n, |F k| ≤ M)
    {jan1 : Int → Int} (hj : IsJan1 jan1) {dt : ℝ} (hy : YearlyAxis jan1 scen.times → dt = 31557600)
    (hmo : ¬ YearlyAxis jan1 scen.times → dt = 2629800) {d1 : ℝ} (hd1 : IsNum R r.d1 R.s d1) (hle : dt ≤ d1) :
    ∃ rT rS : Row XR, out.rows[4 * i + 1]? = some rT ∧ out2.rows[5 * i + 3]? = some rS ∧
      rT.info.get "variable" = some (.str "Surface Temperature|Upper") ∧
      rS.info.get "variable" = some (.str "Surface Temperature") ∧
      ∀ (k : Nat) (t : Int), k < n → scen.times[a + k]? = some t → ∃ x y : ℝ,
        HasValue out.times rT.vals t (.fin x) ∧ HasValue out2.times rS.vals t (.fin y) ∧ |x - y| ≤ dt * M / p.C := by
  obtain ⟨hph, hreach, -, -, -, -, -, s1, -⟩ := built L hp hpos ha hr hdt₀ hi
  obtain rfl := hd1.inj s1
  have hdt : 0 < dt ∧ (YearlyAxis jan1 scen.times → dt / secPerYr = 1) ∧
      (¬ YearlyAxis jan1 scen.times → dt / secPerYr = 1 / 12) := by
    by_cases h : YearlyAxis jan1 scen.times
    · rw [hy h]; exact ⟨by norm_num, fun _ => by norm_num [secPerYr], fun h' => absurd h h'⟩
    · rw [hmo h]; exact ⟨by norm_num, fun h' => absurd h' h, fun _ => by norm_num [secPerYr]⟩
  have hpos' : ({ p with dt := dt } : TLPar).Pos := ⟨hpos.C, hpos.D, hpos.l, hpos.e, hpos.h, hdt.1⟩
  obtain ⟨κ, -, hκ⟩ := IRM.kappa L hph.q1
  have hok : ({ p.toIR with dt := x₀ } : IRPar).Ok :=
    ⟨hpos.toIR_ok.q1, hpos.toIR_ok.q2, hpos.toIR_ok.d1, hpos.toIR_ok.d2, hpos.toIR_ok.e⟩
  obtain ⟨T, TD, U, rT, rD, rU, hq, g1, -, -, hv⟩ :=
    C60_two_layer L hm hp hpos.C.ne' hpos.D.ne' hrun hsel hs hn hpres hus hu hF hj hy hmo
  obtain ⟨T1, T2, U2, r1, r2, rS, rU2, hq2, -, -, g2, -, hv2⟩ :=
    C60_impulse_response L hreach hph hok.boxes hκ hrun2 hsel hs hn hpres hus hu hF hj (dt := dt / secPerYr)
      hdt.2.1 hdt.2.2
  obtain ⟨_, _, -, -, -, hb⟩ := TLM.runs_by_hand L.toDimensional hm hrun hsel
  obtain ⟨_, _, _, -, -, -, -, ⟨rT', e1, f1, -⟩, -⟩ := hb i s hs
  obtain ⟨_, _, -, -, -, hb2⟩ := IRM.runs_by_hand L.toDimensional hreach hrun2 hsel
  obtain ⟨_, _, _, -, -, -, -, -, -, ⟨rS', e2, f2, -⟩, -⟩ := hb2 i s hs
  rw [g1] at e1; cases e1
  rw [g2] at e2; cases e2
  refine ⟨rT, rS, g1, g2, f1.variable_ok, f2.variable_ok, fun k t hk ht => ?_⟩
  refine ⟨T k, T1 k + T2 k, (hv k t hk ht).1, (hv2 k t hk ht).2.2.1, ?_⟩
  obtain ⟨w1, -⟩ := hq.unique hpos'.ok k hk
  obtain ⟨w2, w3, -⟩ := hq2.unique k hk
  rw [w1, w2, w3]
  exact (TLPar.agree hpos' ha hle (k := k) (fun j hj => hM j (by omega)) ((abs_nonneg _).trans (hM k hk)) k le_rfl).1

/-- **C97** (heat uptake).  Parameters in the model's own units: the two "Heat Uptake" series differ by at most `K·dt·M`,
`K = l/C + |e-1| h (|1-φ1| q1/d1 + |1-φ2| q2/d2)`. -/
theorem C97_heat_uptake {m m' : TLM N XR} (hm : TLM.Reachable R m) {p : TLPar} (hp : m.Phys R p) (hpos : p.Pos)
    (ha : p.a = 0) (hu1 : m.du.unit = m.dl.unit) (hu2 : m.eta.unit = R.wm2c)
    {r : TLM.IRParams N XR} (hr : m.getImpulseResponseParameters R = .ok r) {dt₀ : Qty N XR} {x₀ : ℝ}
    (hdt₀ : IsNum R dt₀ R.yr x₀) {m2 m2' : IRM N XR} (hi : IRM.init R (r.args (.qty dt₀)) = .ok m2)
    {dv : String} {scen out out2 : ScmRun XR} (hrun : runScenarios (TLM.variant R) R dv scen m = (m', .ok out))
    (hrun2 : runScenarios (IRM.variant R) R dv scen m2 = (m2', .ok out2))
    {sel : List (Row XR)} (hsel : Selection dv scen.rows sel) {i : Nat} {s : Row XR} (hs : sel[i]? = some s)
    {a n : Nat} (hn : n ≠ 0) (hpres : PresentOn s.vals a n) {us : String} {u : Units N}
    (hus : s.info.get "unit" = some (.str us)) (hu : R.parse us = some u) {F : ℕ → ℝ}
    (hF : ∀ k < n, ∃ x, s.vals[a + k]? = some x ∧ IsNum R ⟨x, u⟩ R.wm2 (F k)) {M : ℝ} (hM : ∀ k < n, |F k| ≤ M)
    {jan1 : Int → Int} (hj : IsJan1 jan1) {dt : ℝ} (hy : YearlyAxis jan1 scen.times → dt = 31557600)
    (hmo : ¬ YearlyAxis jan1 scen.times → dt = 2629800) {q1 q2 d1 d2 : ℝ} (h1 : IsNum R r.q1 R.cwm2 q1)
    (h2 : IsNum R r.q2 R.cwm2 q2) (hd1 : IsNum R r.d1 R.s d1) (hd2 : IsNum R r.d2 R.s d2) (hle : dt ≤ d1) :
    ∃ rU rV : Row XR, out.rows[4 * i + 3]? = some rU ∧ out2.rows[5 * i + 4]? = some rV ∧
      rU.info.get "variable" = some (.str "Heat Uptake") ∧ rV.info.get "variable" = some (.str "Heat Uptake") ∧
      ∀ (k : Nat) (t : Int), k < n → scen.times[a + k]? = some t → ∃ x y : ℝ,
        HasValue out.times rU.vals t (.fin x) ∧ HasValue out2.times rV.vals t (.fin y) ∧
        |x - y| ≤ (p.l / p.C + |p.e - 1| * p.h * (|1 - Geo.phi1 p.C p.D p.l p.e p.h| * (q1 / d1) +
          |1 - Geo.phi2 p.C p.D p.l p.e p.h| * (q2 / d2))) * (dt * M) := by
  obtain ⟨hph, hreach, v1, -, -, k1, k2, s1, s2⟩ := built L hp hpos ha hr hdt₀ hi
  obtain rfl := hd1.inj s1
  obtain rfl := hd2.inj s2
  obtain rfl := h1.inj k1
  obtain rfl := h2.inj k2
  have hdt : 0 < dt ∧ (YearlyAxis jan1 scen.times → dt / secPerYr = 1) ∧
      (¬ YearlyAxis jan1 scen.times → dt / secPerYr = 1 / 12) := by
    by_cases h : YearlyAxis jan1 scen.times
    · rw [hy h]; exact ⟨by norm_num, fun _ => by norm_num [secPerYr], fun h' => absurd h h'⟩
    · rw [hmo h]; exact ⟨by norm_num, fun h' => absurd h' h, fun _ => by norm_num [secPerYr]⟩
  have hpos' : ({ p with dt := dt } : TLPar).Pos := ⟨hpos.C, hpos.D, hpos.l, hpos.e, hpos.h, hdt.1⟩
  have hcw : m.dl.unit - m.eta.unit - m.du.unit = R.cwm2 := by
    rw [hu1, hu2]; simp only [Registry.cwm2, Registry.wm2c]; abel
  have hκ : IsNum R ⟨.fin 1, m2.q1.unit⟩ R.cwm2 1 := by rw [v1, hcw]; exact isNum_self _ _
  have hok : ({ p.toIR with dt := x₀ } : IRPar).Ok :=
    ⟨hpos.toIR_ok.q1, hpos.toIR_ok.q2, hpos.toIR_ok.d1, hpos.toIR_ok.d2, hpos.toIR_ok.e⟩
  obtain ⟨T, TD, U, rT, rD, rU, hq, -, -, g1, hv⟩ :=
    C60_two_layer L hm hp hpos.C.ne' hpos.D.ne' hrun hsel hs hn hpres hus hu hF hj hy hmo
  obtain ⟨T1, T2, U2, r1, r2, rS, rV, hq2, -, -, -, g2, hv2⟩ :=
    C60_impulse_response L hreach hph hok.boxes hκ hrun2 hsel hs hn hpres hus hu hF hj (dt := dt / secPerYr)
      hdt.2.1 hdt.2.2
  obtain ⟨_, _, -, -, -, hb⟩ := TLM.runs_by_hand L.toDimensional hm hrun hsel
  obtain ⟨_, _, _, -, -, -, -, -, -, ⟨rU', e1, f1, -⟩⟩ := hb i s hs
  obtain ⟨_, _, -, -, -, hb2⟩ := IRM.runs_by_hand L.toDimensional hreach hrun2 hsel
  obtain ⟨_, _, _, -, -, -, -, -, -, -, ⟨rV', e2, f2, -⟩⟩ := hb2 i s hs
  rw [g1] at e1; cases e1
  rw [g2] at e2; cases e2
  refine ⟨rU, rV, g1, g2, f1.variable_ok, f2.variable_ok, fun k t hk ht => ?_⟩
  refine ⟨U k, U2 k, (hv k t hk ht).2.2, (hv2 k t hk ht).2.2.2, ?_⟩
  obtain ⟨-, -, w1⟩ := hq.unique hpos'.ok k hk
  obtain ⟨-, -, w2⟩ := hq2.unique k hk
  rw [w1, w2]
  exact TLPar.agree_uptake hpos' ha hle (k := k) (fun j hj => hM j (by omega)) ((abs_nonneg _).trans (hM k hk)) k (by omega)

/-- **C97** (it works).  If `run_scenarios` of the two-layer model succeeds, with parameters in the model's own units, the
conversion and the constructor succeed, and so does `run_scenarios` of the converted model on the same frame, unless two
selected series differ only in columns that the second model overwrites, or a selected series carries variable and unit
of one of its outputs.  Driver values are real or missing. -/
theorem C97_succeeds {m m' : TLM N XR} (hm : TLM.Reachable R m) {p : TLPar} (hp : m.Phys R p) (hpos : p.Pos)
    (ha : p.a = 0) (hu1 : m.du.unit = m.dl.unit) (hu2 : m.eta.unit = R.wm2c) (hu3 : m.efficacy.unit = R.one)
    {dt₀ : Qty N XR} {x₀ : ℝ} (hdt₀ : IsNum R dt₀ R.yr x₀) {dv : String} {scen out : ScmRun XR} (hw : scen.WellFormed)
    (hrun : runScenarios (TLM.variant R) R dv scen m = (m', .ok out))
    {sel : List (Row XR)} (hsel : Selection dv scen.rows sel)
    (hfin : ∀ s ∈ sel, ∀ x ∈ s.vals, x = .nan ∨ ∃ y : ℝ, x = .fin y) {jan1 : Int → Int} (hj : IsJan1 jan1) :
    ∃ r m2, m.getImpulseResponseParameters R = .ok r ∧ IRM.init R (r.args (.qty dt₀)) = .ok m2 ∧
      ((∃ m2' out2, runScenarios (IRM.variant R) R dv scen m2 = (m2', .ok out2)) ↔
        (∀ (i j : Nat) (s s' : Row XR), i ≠ j → sel[i]? = some s → sel[j]? = some s' →
          Distinguishable R m2.pub.params s s') ∧
        ∀ s ∈ sel, ∀ n ∈ [("Surface Temperature|Box 1", "delta_degC"), ("Surface Temperature|Box 2", "delta_degC"),
            ("Surface Temperature", "delta_degC"), ("Heat Uptake", "W/m^2")],
          ¬ (s.info.get "variable" = some (.str n.1) ∧ s.info.get "unit" = some (.str n.2))) := by
  obtain ⟨r, -, -, -, -, hr, -, -, -, -, -, -, -, -, -, hinit⟩ := C36_usable L hp hpos ha
  obtain ⟨m2, hi, -⟩ := hinit dt₀ ⟨_, hdt₀⟩
  refine ⟨r, m2, hr, hi, ?_⟩
  obtain ⟨hph, hreach, v1, v2, v3, -, -, -, -⟩ := built L hp hpos ha hr hdt₀ hi
  have hcw : m.dl.unit - m.eta.unit - m.du.unit = R.cwm2 := by
    rw [hu1, hu2]; simp only [Registry.cwm2, Registry.wm2c]; abel
  rw [hcw] at v1 v2
  rw [hu3] at v3
  obtain ⟨c1, -, -, c4⟩ := (C47_two_layer_succeeds_iff L.toDimensional hm hw hsel hj).mp ⟨_, _, hrun⟩
  obtain ⟨ts, m₁, t1, -⟩ := TLM.runs_by_hand L.toDimensional hm hrun hsel
  rw [IRM.runs_iff L.toDimensional hreach hw hsel]
  constructor
  · rintro ⟨-, h2, _, _, -, -, h3⟩
    exact ⟨h2, fun s hs => (h3 s hs).2.1⟩
  · rintro ⟨h2, h3⟩
    have hok : ∀ x : ℝ, ({ p.toIR with dt := x } : IRPar).Ok := fun x =>
      ⟨hpos.toIR_ok.q1, hpos.toIR_ok.q2, hpos.toIR_ok.d1, hpos.toIR_ok.d2, hpos.toIR_ok.e⟩
    have hex : ∃ dt : ℝ, (YearlyAxis jan1 scen.times → dt = 1) ∧ (¬ YearlyAxis jan1 scen.times → dt = 1 / 12) := by
      by_cases h : YearlyAxis jan1 scen.times
      · exact ⟨1, fun _ => rfl, fun h' => absurd h h'⟩
      · exact ⟨1 / 12, fun h' => absurd h' h, fun _ => rfl⟩
    obtain ⟨dt, hy, hmo⟩ := hex
    have hsd := IRM.setDeltaT_good (R := R) (q := Timestep.qty R ts) (by
      cases ts
      · exact Or.inl rfl
      · exact (mon_in_yr L).unitOk) m2
    obtain ⟨hreach', hphys', hm1⟩ := IRM.setDt_phys L hreach hph t1 hsd hj hy hmo
    refine ⟨c1, h2, ts, _, t1, hsd, fun s hs => ?_⟩
    obtain ⟨⟨x, hx, hxn⟩, ⟨us, u, b1, b2, b3⟩, -⟩ := c4 s hs
    refine ⟨⟨x, hx, hxn⟩, h3 s hs, us, u, b1, b2, ?_⟩
    have hne : (present s.vals).length ≠ 0 := by
      intro h0
      have : x ∈ present s.vals := List.mem_filter.mpr ⟨hx, by simp [hxn]⟩
      rw [List.length_eq_zero_iff.mp h0] at this
      exact absurd this List.not_mem_nil
    have hval : ∀ x ∈ present s.vals, ∃ y : ℝ, IsNum R ⟨x, u⟩ R.wm2 y := by
      intro x hx
      obtain ⟨hx, hxn⟩ := List.mem_filter.mp hx
      rcases hfin s hs x hx with rfl | ⟨y, rfl⟩
      · exact absurd hxn (by decide)
      · have hd := (L.unitOk_iff u R.wm2).mp b3
        have := L.sc_ne u; have := L.sc_ne R.wm2
        refine ⟨y * L.sc u / L.sc R.wm2, L.isNum_iff.mpr ⟨?_, hd⟩⟩
        simp only [Registry.Lawful.quant, Qty.mk.injEq, XR.fin_inj, and_true]
        field_simp
    choose! G hG using hval
    have hd : IsForcing R (.qty ⟨1, present s.vals⟩ u) (present s.vals).length
        (fun i => G ((present s.vals)[i]?.getD .nan)) := by
      refine ⟨_, _, rfl, rfl, fun i hi => ?_⟩
      simp only [List.getElem?_eq_getElem hi, Option.getD_some]
      exact hG _ (List.getElem_mem hi)
    have hκ : IsNum R ⟨.fin 1, m2.q1.unit⟩ R.cwm2 1 := by rw [v1]; exact isNum_self _ _
    obtain ⟨m₂, g, -⟩ := IRM.produces_sol L (IRM.Reachable.coherent R hreach') hphys' (hok dt) hκ hne hd
      (Or.inl (Or.inr (by
        show m2.q2.unit + m2.efficacy.unit = R.cwm2
        rw [v2, v3]; simp [Registry.one])))
    exact ⟨m₂, g⟩
end

/-- A default two-layer object and the frame `Ex.scen`, whose second selected series is 1000, 2000, 3000 W/m² (given in
kW/m²): the conversion, the constructor and both calls of `run_scenarios` succeed, and the one-year step is shorter than
the fast timescale. -/
example : ∃ m r m2 m' m2' out out2, TLM.Reachable U0.reg m ∧ m.Phys U0.reg TLPar.default ∧ TLPar.default.Pos ∧
    TLPar.default.a = 0 ∧ m.du.unit = m.dl.unit ∧ m.eta.unit = U0.reg.wm2c ∧ m.efficacy.unit = U0.reg.one ∧
    m.getImpulseResponseParameters U0.reg = .ok r ∧ IsNum U0.reg ⟨.fin 1, U0.reg.yr⟩ U0.reg.yr 1 ∧
    IRM.init U0.reg (r.args (.qty ⟨.fin 1, U0.reg.yr⟩)) = .ok m2 ∧
    runScenarios (TLM.variant U0.reg) U0.reg defaultDriverVar Ex.scen m = (m', .ok out) ∧
    runScenarios (IRM.variant U0.reg) U0.reg defaultDriverVar Ex.scen m2 = (m2', .ok out2) ∧
    YearlyAxis daysBeforeYear Ex.scen.times ∧ IsNum U0.reg r.d1 U0.reg.s TLPar.default.tau1 ∧
    31557600 ≤ TLPar.default.tau1 := by
  obtain ⟨m, h, hp⟩ := TLM.default_exists U0.lawful
  have hm : TLM.Reachable U0.reg m := ⟨_, m, [], h, rfl⟩
  have hpub : m.du.unit = m.dl.unit ∧ m.eta.unit = U0.reg.wm2c ∧ m.efficacy.unit = U0.reg.one := by
    have hi : TLM.init U0.reg (TLM.defaultArgs U0.reg) = .ok _ := TLM.init_good U0.lawful.toDimensional (Or.inl rfl)
      (Or.inl rfl) (Or.inl rfl) (Or.inl rfl) (Or.inl rfl) (Or.inl rfl) (Or.inl rfl)
    rw [hi] at h
    cases h
    exact ⟨rfl, rfl, rfl⟩
  have hdist : ∀ ps : List (String × Qty U0 XR), ∀ (i j : Nat) (s s' : Row XR), i ≠ j → [Ex.rowA, Ex.rowB][i]? = some s →
      [Ex.rowA, Ex.rowB][j]? = some s' → Distinguishable U0.reg ps s s' := by
    intro ps i j r r' hij hi hj
    have h1 : i < 2 := (List.getElem?_eq_some_iff.mp hi).1
    have h2 : j < 2 := (List.getElem?_eq_some_iff.mp hj).1
    obtain ⟨d1, d2⟩ := Ex.distinguishable U0.reg ps
    interval_cases i <;> interval_cases j
    · exact absurd rfl hij
    · simp at hi hj; subst hi; subst hj; exact d1
    · simp at hi hj; subst hi; subst hj; exact d2
    · exact absurd rfl hij
  obtain ⟨m', out, hrun⟩ := (C47_two_layer_succeeds_iff U0.lawful.toDimensional hm Ex.wellFormed Ex.selection
    isJan1_daysBeforeYear).mpr ⟨by simp, Or.inl Ex.yearly, hdist _, by
      intro r hr
      simp only [List.mem_cons, List.not_mem_nil, or_false] at hr
      rcases hr with rfl | rfl
      · refine ⟨⟨.fin 1, by simp [Ex.rowA], rfl⟩, ⟨"W/m^2", U0.reg.wm2, rfl, by rfl, Or.inl rfl⟩, ?_, ?_, ?_⟩ <;>
          simp [Ex.rowA, Ex.info, Meta.get]
      · refine ⟨⟨.fin 1, by simp [Ex.rowB], rfl⟩, ⟨"kW/m^2", U0.kwU, rfl, by rfl, Ex.kw_ok⟩, ?_, ?_, ?_⟩ <;>
          simp [Ex.rowB, Ex.info, Meta.get]⟩
  obtain ⟨r, m2, hr, hi, hiff⟩ := C97_succeeds U0.lawful hm hp TLPar.default_pos rfl hpub.1 hpub.2.1 hpub.2.2
    (isNum_self 1 U0.reg.yr) Ex.wellFormed hrun Ex.selection (by
      intro s hs x hx
      simp only [List.mem_cons, List.not_mem_nil, or_false] at hs
      rcases hs with rfl | rfl
      · simp only [Ex.rowA, List.mem_cons, List.not_mem_nil, or_false] at hx
        rcases hx with rfl | rfl | rfl
        · exact Or.inl rfl
        · exact Or.inr ⟨_, rfl⟩
        · exact Or.inr ⟨_, rfl⟩
      · simp only [Ex.rowB, List.mem_cons, List.not_mem_nil, or_false] at hx
        rcases hx with rfl | rfl | rfl <;> exact Or.inr ⟨_, rfl⟩) isJan1_daysBeforeYear
  obtain ⟨m2', out2, hrun2⟩ := hiff.mpr ⟨hdist _, by
    intro s hs
    simp only [List.mem_cons, List.not_mem_nil, or_false] at hs
    rcases hs with rfl | rfl
    · simp [Ex.rowA, Ex.info, Meta.get]
    · simp [Ex.rowB, Ex.info, Meta.get]⟩
  obtain ⟨r', hr', -, -, -, -, s1, -⟩ := TLM.getIR_phys U0.lawful hp TLPar.default_pos rfl
  rw [hr] at hr'; cases hr'
  refine ⟨m, r, m2, m', m2', out, out2, hm, hp, TLPar.default_pos, rfl, hpub.1, hpub.2.1, hpub.2.2, hr, isNum_self 1 _, hi,
    hrun, hrun2, Ex.yearly, s1, ?_⟩
  -- 1/τ1 ≤ 1/τ1 + 1/τ2 = (l + e h)/C + h/D
  have hr := TLPar.default_pos.rates
  have t1 := TLPar.default_pos.tau1_pos
  have t2 := TLPar.default_pos.tau2_pos
  have h2 : 0 < 1 / TLPar.default.tau2 := by positivity
  have hb : (TLPar.default.l + TLPar.default.e * TLPar.default.h) / TLPar.default.C + TLPar.default.h / TLPar.default.D ≤
      1 / 31557600 := by norm_num [TLPar.default]
  have h1 : 1 / TLPar.default.tau1 ≤ 1 / 31557600 := by linarith
  exact (one_div_le_one_div t1 (by norm_num)).mp h1

end TwoLayer
