import Verif.Proofs.Success
import Verif.Props.Time

/-!
# C47–C51, C54–C56: `run_scenarios`, for every arithmetic

In every theorem `m` is an object a program can hold (constructed, then any history of calls, including failing ones and
earlier `run_scenarios` calls), `scen` the input frame, `sel` its series that match `driver_var` in region World
(`Selection`, from `Spec/Scenarios.lean`).
-/

set_option linter.unusedSimpArgs false
set_option linter.unusedSectionVars false

namespace TwoLayer
open Cal
variable {N α : Type} [Fintype N] [DecidableEq N] [Arith α] [DecidableEq α] {R : Registry N α}

/-! ## C47 -/

/-- If `run_scenarios` succeeds, then there is a time step `ts`; setting `delta_t` to it by hand gives an object `m₁`;
and for the `i`-th selected series, `set_drivers`, `reset`, `run` on `m₁` with its non-missing values in its unit succeed
by hand, and rows `4i` to `4i+3` of the result are the driver and the three outputs of that run by hand.  There are no
other rows. -/
theorem TLM.runs_by_hand (D : R.Dimensional) {m m' : TLM N α} (hm : TLM.Reachable R m) {dv : String} {scen out : ScmRun α}
    (hrun : runScenarios (TLM.variant R) R dv scen m = (m', .ok out)) {sel : List (Row α)}
    (hsel : Selection dv scen.rows sel) :
    ∃ ts m₁, selectTimestep scen.times = .ok ts ∧ TLM.setDeltaT R (.qty (ts.qty R)) m = (m₁, .ok ()) ∧
      out.rows.length = 4 * sel.length ∧
      ∀ (i : Nat) (r : Row α), sel[i]? = some r → ∃ us u m₂, r.info.get "unit" = some (.str us) ∧ R.parse us = some u ∧
        TLM.simulate R (.qty ⟨1, present r.vals⟩ u) m₁ = (m₂, .ok ()) ∧
        ReturnedRow R "two_layer" m.pub.params scen out i r (4 * i) (r.info.get "variable") (r.info.get "unit")
          (present r.vals) ∧
        ReturnedRow R "two_layer" m.pub.params scen out i r (4 * i + 1) (some (.str "Surface Temperature|Upper"))
          (some (.str "delta_degC")) m₂.tu ∧
        ReturnedRow R "two_layer" m.pub.params scen out i r (4 * i + 2) (some (.str "Surface Temperature|Lower"))
          (some (.str "delta_degC")) m₂.tl ∧
        ReturnedRow R "two_layer" m.pub.params scen out i r (4 * i + 3) (some (.str "Heat Uptake"))
          (some (.str "W/m^2")) m₂.rndt := by
  have hs := (selection_iff dv _ _).mp hsel
  subst hs
  obtain ⟨ts, m₁, a1, a2, -, -, -, -, a6, a5⟩ := (TLM.laws D).returned (TLM.Reachable.coherent R D hm) hrun
  refine ⟨ts, m₁, a1, a2, a6, ?_⟩
  intro i r hr
  obtain ⟨us, u, m₂, c1, c2, c3, -, c4, c5⟩ := a5 i r hr
  exact ⟨us, u, m₂, c1, c2, c3, c4, c5 0 _ rfl, c5 1 _ rfl, c5 2 _ rfl⟩

/-- The same for the impulse response model, with rows `5i` to `5i+4`; the fourth is the sum of the two boxes. -/
theorem IRM.runs_by_hand (D : R.Dimensional) {m m' : IRM N α} (hm : IRM.Reachable R m) {dv : String}
    {scen out : ScmRun α} (hrun : runScenarios (IRM.variant R) R dv scen m = (m', .ok out)) {sel : List (Row α)}
    (hsel : Selection dv scen.rows sel) :
    ∃ ts m₁, selectTimestep scen.times = .ok ts ∧ IRM.setDeltaT R (.qty (ts.qty R)) m = (m₁, .ok ()) ∧
      out.rows.length = 5 * sel.length ∧
      ∀ (i : Nat) (r : Row α), sel[i]? = some r → ∃ us u m₂, r.info.get "unit" = some (.str us) ∧ R.parse us = some u ∧
        IRM.simulate R (.qty ⟨1, present r.vals⟩ u) m₁ = (m₂, .ok ()) ∧
        ReturnedRow R "two_timescale_impulse_response" m.pub.params scen out i r (5 * i) (r.info.get "variable")
          (r.info.get "unit") (present r.vals) ∧
        ReturnedRow R "two_timescale_impulse_response" m.pub.params scen out i r (5 * i + 1)
          (some (.str "Surface Temperature|Box 1")) (some (.str "delta_degC")) m₂.t1 ∧
        ReturnedRow R "two_timescale_impulse_response" m.pub.params scen out i r (5 * i + 2)
          (some (.str "Surface Temperature|Box 2")) (some (.str "delta_degC")) m₂.t2 ∧
        ReturnedRow R "two_timescale_impulse_response" m.pub.params scen out i r (5 * i + 3)
          (some (.str "Surface Temperature")) (some (.str "delta_degC")) (List.zipWith (· + ·) m₂.t1 m₂.t2) ∧
        ReturnedRow R "two_timescale_impulse_response" m.pub.params scen out i r (5 * i + 4)
          (some (.str "Heat Uptake")) (some (.str "W/m^2")) m₂.rndt := by
  have hs := (selection_iff dv _ _).mp hsel
  subst hs
  obtain ⟨ts, m₁, a1, a2, -, -, -, -, a6, a5⟩ := (IRM.laws D).returned (IRM.Reachable.coherent R hm) hrun
  refine ⟨ts, m₁, a1, a2, a6, ?_⟩
  intro i r hr
  obtain ⟨us, u, m₂, c1, c2, c3, -, c4, c5⟩ := a5 i r hr
  exact ⟨us, u, m₂, c1, c2, c3, c4, c5 0 _ rfl, c5 1 _ rfl, c5 2 _ rfl, c5 3 _ rfl⟩

/-- `run_scenarios` of the two-layer model succeeds exactly when: some series is selected; the axis is yearly or monthly;
any two selected series differ in a column that is not overwritten; and every selected series has a value, has a unit
that is known and convertible to W/m², and does not carry variable and unit of one of the three outputs. -/
theorem C47_two_layer_succeeds_iff (D : R.Dimensional) {m : TLM N α} (hm : TLM.Reachable R m) {dv : String}
    {scen : ScmRun α} (hw : scen.WellFormed) {sel : List (Row α)} (hsel : Selection dv scen.rows sel)
    {jan1 : Int → Int} (hj : IsJan1 jan1) :
    (∃ m' out, runScenarios (TLM.variant R) R dv scen m = (m', .ok out)) ↔
      sel ≠ [] ∧ (YearlyAxis jan1 scen.times ∨ MonthlyAxis scen.times) ∧
      (∀ (i j : Nat) (r r' : Row α), i ≠ j → sel[i]? = some r → sel[j]? = some r' → Distinguishable R m.pub.params r r') ∧
      ∀ r ∈ sel, (∃ x ∈ r.vals, Arith.isNaN x = false) ∧
        (∃ us u, r.info.get "unit" = some (.str us) ∧ R.parse us = some u ∧ (u = R.wm2 ∨ R.compat u R.wm2 = true)) ∧
        ¬ (r.info.get "variable" = some (.str "Surface Temperature|Upper") ∧ r.info.get "unit" = some (.str "delta_degC")) ∧
        ¬ (r.info.get "variable" = some (.str "Surface Temperature|Lower") ∧ r.info.get "unit" = some (.str "delta_degC")) ∧
        ¬ (r.info.get "variable" = some (.str "Heat Uptake") ∧ r.info.get "unit" = some (.str "W/m^2")) := by
  have hs := (selection_iff dv _ _).mp hsel
  subst hs
  have hc := TLM.Reachable.coherent R D hm
  have key := (TLM.laws D).succeeds_iff hc (dv := dv) hw
  have e1 : (∃ m' out, runScenarios (TLM.variant R) R dv scen m = (m', .ok out)) ↔
      ∃ out, (runScenarios (TLM.variant R) R dv scen m).2 = .ok out := by
    constructor
    · rintro ⟨m', out, h⟩; exact ⟨out, by rw [h]⟩
    · rintro ⟨out, h⟩; exact ⟨_, out, Prod.ext rfl h⟩
  rw [e1, key]
  obtain ⟨s1, s2, s3⟩ := C51_select hj scen.times
  have hpres : ∀ r : Row α, present r.vals ≠ [] ↔ ∃ x ∈ r.vals, Arith.isNaN x = false := by
    intro r
    unfold present
    rw [ne_eq, List.filter_eq_nil_iff]
    push Not
    simp
  have hns : ∀ vals : List α, (present vals).any Arith.isNaN = false := by
    intro vals
    simp [present, List.any_filter]
  have hsim : ∀ (vals : List α) (u : Units N) (m₁ : TLM N α),
      (∃ m₂, (TLM.variant R).simulate (.qty ⟨1, present vals⟩ u) m₁ = (m₂, .ok ())) ↔
        (u = R.wm2 ∨ R.compat u R.wm2 = true) := by
    intro vals u m₁
    rw [TLM.simulate_variant]
    constructor
    · rintro ⟨m₂, h⟩
      obtain ⟨v, u', w, hg, -⟩ := TLM.simulate_ok h
      obtain ⟨rfl, rfl⟩ := GoodDrivers.of_eq hg rfl
      exact hg.2.1
    · intro hu
      exact TLM.simulate_succeeds R m₁ ⟨rfl, hu, hns vals⟩
  have hnames : ∀ r : Row α, (∀ n ∈ (TLM.laws D).names, ¬ (r.info.get "variable" = some (.str n.1) ∧
        r.info.get "unit" = some (.str n.2))) ↔
      (¬ (r.info.get "variable" = some (.str "Surface Temperature|Upper") ∧ r.info.get "unit" = some (.str "delta_degC")) ∧
        ¬ (r.info.get "variable" = some (.str "Surface Temperature|Lower") ∧ r.info.get "unit" = some (.str "delta_degC")) ∧
        ¬ (r.info.get "variable" = some (.str "Heat Uptake") ∧ r.info.get "unit" = some (.str "W/m^2"))) := by
    intro r
    simp only [TLM.laws, List.mem_cons, List.not_mem_nil, or_false, forall_eq_or_imp, forall_eq]
  constructor
  · rintro ⟨h1, h2, ts, m₁, h3, -, h5⟩
    refine ⟨h1, ?_, h2, ?_⟩
    · cases ts with
      | yearly => exact Or.inl (s1.mp h3)
      | monthly => exact Or.inr (s2.mp h3).2
    · intro r hr
      obtain ⟨g1, g2, us, u, g3, g4, g5⟩ := h5 r hr
      exact ⟨(hpres r).mp g1, ⟨us, u, g3, g4, (hsim _ _ _).mp g5⟩, (hnames r).mp g2⟩
  · rintro ⟨h1, h2, h3, h4⟩
    refine ⟨h1, h3, ?_⟩
    have hts : ∃ ts, selectTimestep scen.times = .ok ts := by
      by_cases hy : YearlyAxis jan1 scen.times
      · exact ⟨_, s1.mpr hy⟩
      · exact ⟨_, s2.mpr ⟨hy, h2.resolve_left hy⟩⟩
    obtain ⟨ts, hts⟩ := hts
    obtain ⟨m₁, hm₁, -, -⟩ := (TLM.laws D).setDt m (ts.qty R) hc (by cases ts <;> simp [Timestep.qty])
    refine ⟨ts, m₁, hts, hm₁, ?_⟩
    intro r hr
    obtain ⟨g1, ⟨us, u, g2, g3, g4⟩, g5⟩ := h4 r hr
    exact ⟨(hpres r).mpr g1, (hnames r).mpr g5, us, u, g2, g3, (hsim _ _ _).mpr g4⟩

/-- `run_scenarios` of the impulse response model succeeds exactly when: some series is selected; any two selected series
differ in a column that is not overwritten; the axis has a time step; and every selected series has a value, does not carry
variable and unit of an output, and runs by hand (see C45 for when that is). -/
theorem IRM.runs_iff (D : R.Dimensional) {m : IRM N α} (hm : IRM.Reachable R m) {dv : String}
    {scen : ScmRun α} (hw : scen.WellFormed) {sel : List (Row α)} (hsel : Selection dv scen.rows sel) :
    (∃ m' out, runScenarios (IRM.variant R) R dv scen m = (m', .ok out)) ↔
      sel ≠ [] ∧
      (∀ (i j : Nat) (r r' : Row α), i ≠ j → sel[i]? = some r → sel[j]? = some r' → Distinguishable R m.pub.params r r') ∧
      ∃ ts m₁, selectTimestep scen.times = .ok ts ∧ IRM.setDeltaT R (.qty (ts.qty R)) m = (m₁, .ok ()) ∧
        ∀ r ∈ sel, (∃ x ∈ r.vals, Arith.isNaN x = false) ∧
          (∀ n ∈ [("Surface Temperature|Box 1", "delta_degC"), ("Surface Temperature|Box 2", "delta_degC"),
            ("Surface Temperature", "delta_degC"), ("Heat Uptake", "W/m^2")],
            ¬ (r.info.get "variable" = some (.str n.1) ∧ r.info.get "unit" = some (.str n.2))) ∧
          ∃ us u, r.info.get "unit" = some (.str us) ∧ R.parse us = some u ∧
            ∃ m₂, IRM.simulate R (.qty ⟨1, present r.vals⟩ u) m₁ = (m₂, .ok ()) := by
  have hs := (selection_iff dv _ _).mp hsel
  subst hs
  have e1 : (∃ m' out, runScenarios (IRM.variant R) R dv scen m = (m', .ok out)) ↔
      ∃ out, (runScenarios (IRM.variant R) R dv scen m).2 = .ok out := by
    constructor
    · rintro ⟨m', out, h⟩; exact ⟨out, by rw [h]⟩
    · rintro ⟨out, h⟩; exact ⟨_, out, Prod.ext rfl h⟩
  have hpres : ∀ r : Row α, present r.vals ≠ [] ↔ ∃ x ∈ r.vals, Arith.isNaN x = false := by
    intro r
    unfold present
    rw [ne_eq, List.filter_eq_nil_iff]
    push Not
    simp
  rw [e1, (IRM.laws D).succeeds_iff (IRM.Reachable.coherent R hm) (dv := dv) hw]
  simp only [hpres]
  rfl

/-! ### in terms of the time axis -/

theorem axisStep_iff (times : List Int) (dt : Qty N α) : AxisStep R times dt ↔ ∃ ts, selectTimestep times = .ok ts ∧ dt = ts.qty R := by
  constructor
  · rintro ⟨j, hj, ⟨h, rfl⟩ | ⟨h1, h2, rfl⟩⟩
    · exact ⟨.yearly, (C51_select hj times).1.mpr h, rfl⟩
    · exact ⟨.monthly, (C51_select hj times).2.1.mpr ⟨h1, h2⟩, rfl⟩
  · rintro ⟨ts, h, rfl⟩
    obtain ⟨s1, s2, -⟩ := C51_select isJan1_daysBeforeYear times
    refine ⟨_, isJan1_daysBeforeYear, ?_⟩
    cases ts with
    | yearly => exact Or.inl ⟨s1.mp h, rfl⟩
    | monthly => exact Or.inr ⟨(s2.mp h).1, (s2.mp h).2, rfl⟩

/-- If `run_scenarios` succeeds, then there is a time step `ts`; setting `delta_t` to it by hand gives an object `m₁`;
and for the `i`-th selected series, `set_drivers`, `reset`, `run` on `m₁` with its non-missing values in its unit succeed
by hand, and rows `4i` to `4i+3` of the result are the driver and the three outputs of that run by hand.  There are no
other rows. -/
theorem C47_two_layer (D : R.Dimensional) {m m' : TLM N α} (hm : TLM.Reachable R m) {dv : String} {scen out : ScmRun α}
    (hrun : runScenarios (TLM.variant R) R dv scen m = (m', .ok out)) {sel : List (Row α)}
    (hsel : Selection dv scen.rows sel) :
    ∃ dt m₁, AxisStep R scen.times dt ∧ TLM.setDeltaT R (.qty dt) m = (m₁, .ok ()) ∧
      out.rows.length = 4 * sel.length ∧
      ∀ (i : Nat) (r : Row α), sel[i]? = some r → ∃ us u m₂, r.info.get "unit" = some (.str us) ∧ R.parse us = some u ∧
        TLM.simulate R (.qty ⟨1, present r.vals⟩ u) m₁ = (m₂, .ok ()) ∧
        ReturnedRow R "two_layer" m.pub.params scen out i r (4 * i) (r.info.get "variable") (r.info.get "unit")
          (present r.vals) ∧
        ReturnedRow R "two_layer" m.pub.params scen out i r (4 * i + 1) (some (.str "Surface Temperature|Upper"))
          (some (.str "delta_degC")) m₂.tu ∧
        ReturnedRow R "two_layer" m.pub.params scen out i r (4 * i + 2) (some (.str "Surface Temperature|Lower"))
          (some (.str "delta_degC")) m₂.tl ∧
        ReturnedRow R "two_layer" m.pub.params scen out i r (4 * i + 3) (some (.str "Heat Uptake"))
          (some (.str "W/m^2")) m₂.rndt := by
  obtain ⟨ts, m₁, h1, h2⟩ := TLM.runs_by_hand D hm hrun hsel
  exact ⟨ts.qty R, m₁, (axisStep_iff _ _).mpr ⟨ts, h1, rfl⟩, h2⟩

/-- The same for the impulse response model, with rows `5i` to `5i+4`; the fourth is the sum of the two boxes. -/
theorem C47_impulse_response (D : R.Dimensional) {m m' : IRM N α} (hm : IRM.Reachable R m) {dv : String}
    {scen out : ScmRun α} (hrun : runScenarios (IRM.variant R) R dv scen m = (m', .ok out)) {sel : List (Row α)}
    (hsel : Selection dv scen.rows sel) :
    ∃ dt m₁, AxisStep R scen.times dt ∧ IRM.setDeltaT R (.qty dt) m = (m₁, .ok ()) ∧
      out.rows.length = 5 * sel.length ∧
      ∀ (i : Nat) (r : Row α), sel[i]? = some r → ∃ us u m₂, r.info.get "unit" = some (.str us) ∧ R.parse us = some u ∧
        IRM.simulate R (.qty ⟨1, present r.vals⟩ u) m₁ = (m₂, .ok ()) ∧
        ReturnedRow R "two_timescale_impulse_response" m.pub.params scen out i r (5 * i) (r.info.get "variable")
          (r.info.get "unit") (present r.vals) ∧
        ReturnedRow R "two_timescale_impulse_response" m.pub.params scen out i r (5 * i + 1)
          (some (.str "Surface Temperature|Box 1")) (some (.str "delta_degC")) m₂.t1 ∧
        ReturnedRow R "two_timescale_impulse_response" m.pub.params scen out i r (5 * i + 2)
          (some (.str "Surface Temperature|Box 2")) (some (.str "delta_degC")) m₂.t2 ∧
        ReturnedRow R "two_timescale_impulse_response" m.pub.params scen out i r (5 * i + 3)
          (some (.str "Surface Temperature")) (some (.str "delta_degC")) (List.zipWith (· + ·) m₂.t1 m₂.t2) ∧
        ReturnedRow R "two_timescale_impulse_response" m.pub.params scen out i r (5 * i + 4)
          (some (.str "Heat Uptake")) (some (.str "W/m^2")) m₂.rndt := by
  obtain ⟨ts, m₁, h1, h2⟩ := IRM.runs_by_hand D hm hrun hsel
  exact ⟨ts.qty R, m₁, (axisStep_iff _ _).mpr ⟨ts, h1, rfl⟩, h2⟩

/-- `run_scenarios` of the impulse response model succeeds exactly when: some series is selected; any two selected series
differ in a column that is not overwritten; the axis has a time step; and every selected series has a value, does not carry
variable and unit of an output, and runs by hand (see C45 for when that is). -/
theorem C47_impulse_response_succeeds_iff (D : R.Dimensional) {m : IRM N α} (hm : IRM.Reachable R m) {dv : String}
    {scen : ScmRun α} (hw : scen.WellFormed) {sel : List (Row α)} (hsel : Selection dv scen.rows sel) :
    (∃ m' out, runScenarios (IRM.variant R) R dv scen m = (m', .ok out)) ↔
      sel ≠ [] ∧
      (∀ (i j : Nat) (r r' : Row α), i ≠ j → sel[i]? = some r → sel[j]? = some r' → Distinguishable R m.pub.params r r') ∧
      ∃ dt m₁, AxisStep R scen.times dt ∧ IRM.setDeltaT R (.qty dt) m = (m₁, .ok ()) ∧
        ∀ r ∈ sel, (∃ x ∈ r.vals, Arith.isNaN x = false) ∧
          (∀ n ∈ [("Surface Temperature|Box 1", "delta_degC"), ("Surface Temperature|Box 2", "delta_degC"),
            ("Surface Temperature", "delta_degC"), ("Heat Uptake", "W/m^2")],
            ¬ (r.info.get "variable" = some (.str n.1) ∧ r.info.get "unit" = some (.str n.2))) ∧
          ∃ us u, r.info.get "unit" = some (.str us) ∧ R.parse us = some u ∧
            ∃ m₂, IRM.simulate R (.qty ⟨1, present r.vals⟩ u) m₁ = (m₂, .ok ()) := by
  rw [IRM.runs_iff D hm hw hsel]
  refine and_congr_right fun _ => and_congr_right fun _ => ?_
  constructor
  · rintro ⟨ts, m₁, h1, h2⟩
    exact ⟨ts.qty R, m₁, (axisStep_iff _ _).mpr ⟨ts, h1, rfl⟩, h2⟩
  · rintro ⟨dt, m₁, h1, h2⟩
    obtain ⟨ts, h3, rfl⟩ := (axisStep_iff _ _).mp h1
    exact ⟨ts, m₁, h3, h2⟩

/-! ## C48 -/

/-- The results for one series `r` are the same in any two calls with the same time axis, whatever the other series,
on any two objects (after any histories) with the same parameters other than `delta_t`: same metadata except the number
`run_idx`, same values at the same times. -/
theorem C48_two_layer (D : R.Dimensional) {m m' n n' : TLM N α} (hm : TLM.Reachable R m) (hn : TLM.Reachable R n)
    (hp : { m.pub with deltaT := n.pub.deltaT } = n.pub) {dv : String} {scen scen' out out' : ScmRun α}
    (ht : scen.times = scen'.times) (hrun : runScenarios (TLM.variant R) R dv scen m = (m', .ok out))
    (hrun' : runScenarios (TLM.variant R) R dv scen' n = (n', .ok out')) {sel sel' : List (Row α)}
    (hsel : Selection dv scen.rows sel) (hsel' : Selection dv scen'.rows sel') {i i' : Nat} {r : Row α}
    (hi : sel[i]? = some r) (hi' : sel'[i']? = some r) :
    ∀ k < 4, ∃ row row', out.rows[4 * i + k]? = some row ∧ out'.rows[4 * i' + k]? = some row' ∧
      (∀ c, c ≠ "run_idx" → row.info.get c = row'.info.get c) ∧
      (∀ t x, x ≠ Arith.nan → (HasValue out.times row.vals t x ↔ HasValue out'.times row'.vals t x)) := by
  have hs := (selection_iff dv _ _).mp hsel
  have hs' := (selection_iff dv _ _).mp hsel'
  subst hs; subst hs'
  exact (TLM.laws D).independent (TLM.Reachable.coherent R D hm) (TLM.Reachable.coherent R D hn)
    (fun q => by show { m.pub with deltaT := q } = { n.pub with deltaT := q }; rw [← hp]) ht hrun hrun' hi hi'

/-- The same for the impulse response model. -/
theorem C48_impulse_response (D : R.Dimensional) {m m' n n' : IRM N α} (hm : IRM.Reachable R m) (hn : IRM.Reachable R n)
    (hp : { m.pub with deltaT := n.pub.deltaT } = n.pub) {dv : String} {scen scen' out out' : ScmRun α}
    (ht : scen.times = scen'.times) (hrun : runScenarios (IRM.variant R) R dv scen m = (m', .ok out))
    (hrun' : runScenarios (IRM.variant R) R dv scen' n = (n', .ok out')) {sel sel' : List (Row α)}
    (hsel : Selection dv scen.rows sel) (hsel' : Selection dv scen'.rows sel') {i i' : Nat} {r : Row α}
    (hi : sel[i]? = some r) (hi' : sel'[i']? = some r) :
    ∀ k < 5, ∃ row row', out.rows[5 * i + k]? = some row ∧ out'.rows[5 * i' + k]? = some row' ∧
      (∀ c, c ≠ "run_idx" → row.info.get c = row'.info.get c) ∧
      (∀ t x, x ≠ Arith.nan → (HasValue out.times row.vals t x ↔ HasValue out'.times row'.vals t x)) := by
  have hs := (selection_iff dv _ _).mp hsel
  have hs' := (selection_iff dv _ _).mp hsel'
  subst hs; subst hs'
  exact (IRM.laws D).independent (IRM.Reachable.coherent R hm) (IRM.Reachable.coherent R hn)
    (fun q => by show { m.pub with deltaT := q } = { n.pub with deltaT := q }; rw [← hp]) ht hrun hrun' hi hi'

/-- Success together implies success of each selected series alone … -/
theorem C48_alone_two_layer (D : R.Dimensional) {m m' : TLM N α} (hm : TLM.Reachable R m) {dv : String}
    {scen out : ScmRun α} (hrun : runScenarios (TLM.variant R) R dv scen m = (m', .ok out)) {r : Row α}
    (hr : r ∈ scen.rows) (hsel : Selected dv r) :
    ∃ out', (runScenarios (TLM.variant R) R dv ⟨scen.times, [r]⟩ m).2 = .ok out' :=
  (TLM.laws D).alone_of_joint (TLM.Reachable.coherent R D hm) hrun
    (List.mem_filter.mpr ⟨hr, (selects_iff dv r).mpr hsel⟩)

/-- … for both models. -/
theorem C48_alone_impulse_response (D : R.Dimensional) {m m' : IRM N α} (hm : IRM.Reachable R m) {dv : String}
    {scen out : ScmRun α} (hrun : runScenarios (IRM.variant R) R dv scen m = (m', .ok out)) {r : Row α}
    (hr : r ∈ scen.rows) (hsel : Selected dv r) :
    ∃ out', (runScenarios (IRM.variant R) R dv ⟨scen.times, [r]⟩ m).2 = .ok out' :=
  (IRM.laws D).alone_of_joint (IRM.Reachable.coherent R hm) hrun
    (List.mem_filter.mpr ⟨hr, (selects_iff dv r).mpr hsel⟩)

/-- An error of a joint call is an error of one of the selected series alone, unless two of them are
indistinguishable. -/
theorem C48_error_two_layer (D : R.Dimensional) {m : TLM N α} (hm : TLM.Reachable R m) {dv : String} {scen : ScmRun α}
    (hw : scen.WellFormed) {e : Err} (hrun : (runScenarios (TLM.variant R) R dv scen m).2 = .error e) {r₀ : Row α}
    (hr₀ : r₀ ∈ scen.rows) (hsel₀ : Selected dv r₀) :
    (∃ r ∈ scen.rows, Selected dv r ∧ (runScenarios (TLM.variant R) R dv ⟨scen.times, [r]⟩ m).2 = .error e) ∨
    (e = .nonUniqueMeta ∧ ∃ (sel : List (Row α)) (i j : Nat) (r r' : Row α), Selection dv scen.rows sel ∧ i ≠ j ∧
      sel[i]? = some r ∧ sel[j]? = some r' ∧ ¬ Distinguishable R m.pub.params r r') := by
  have hmem : r₀ ∈ scen.rows.filter (selects dv) := List.mem_filter.mpr ⟨hr₀, (selects_iff dv r₀).mpr hsel₀⟩
  have hne : scen.rows.filter (selects dv) ≠ [] := List.ne_nil_of_mem hmem
  have hc := TLM.Reachable.coherent R D hm
  cases hts : selectTimestep scen.times with
  | error e' =>
    left
    refine ⟨r₀, hr₀, hsel₀, ?_⟩
    have h1 : (runScenarios (TLM.variant R) R dv scen m).2 = .error e' := by
      rcases (TLM.laws D).runScenarios_spec hc dv scen with ⟨a1, _⟩ | ⟨_, e, a2, a3⟩ | ⟨_, ts, _, a2, _⟩
      · exact absurd a1 hne
      · rw [hts] at a2; cases a2; rw [a3]
      · rw [hts] at a2; cases a2
    rw [hrun] at h1; cases h1
    rcases (TLM.laws D).runScenarios_spec hc dv ⟨scen.times, [r₀]⟩ with ⟨a1, _⟩ | ⟨_, e, a2, a3⟩ | ⟨_, ts, _, a2, _⟩
    · simp [(selects_iff dv r₀).mpr hsel₀] at a1
    · simp only at a2; rw [hts] at a2; cases a2; rw [a3]
    · simp only at a2; rw [hts] at a2; cases a2
  | ok ts =>
    rcases (TLM.laws D).joint_error hc hrun hne hts with ⟨rfl, hnd⟩ | ⟨r, hr, he⟩
    · right
      refine ⟨rfl, ?_⟩
      have hsub : ∀ r ∈ scen.rows.filter (selects dv), r ∈ scen.rows := fun r hr => (List.mem_filter.mp hr).1
      rw [Variant.Laws.annotated_nodup ((TLM.laws D).params_names _)
        (fun r hr r' hr' => hw.columns r (hsub r hr) r' (hsub r' hr')) (fun r hr => hw.nodup r (hsub r hr))] at hnd
      push Not at hnd
      obtain ⟨i, j, r, r', h1, h2, h3, h4⟩ := hnd
      exact ⟨_, i, j, r, r', (selection_iff dv _ _).mpr rfl, h1, h2, h3, h4⟩
    · exact Or.inl ⟨r, (List.mem_filter.mp hr).1, (selects_iff dv r).mp (List.mem_filter.mp hr).2, he⟩

/-! ## C49 -/

/-- There is exactly one selection; `run_scenarios` depends on the input only through the time axis and the selection. -/
theorem C49_selection (dv : String) (rows : List (Row α)) : ∃! sel, Selection dv rows sel :=
  ⟨_, (selection_iff dv rows _).mpr rfl, fun _ h => (selection_iff dv rows _).mp h⟩

/-- Series that are not selected have no influence at all: adding or removing them does not change what the call does,
to the object or to the result. -/
theorem C49_only_selected {σ : Type} (V : Variant N α σ) {dv : String} {scen scen' : ScmRun α} {sel : List (Row α)}
    (ht : scen.times = scen'.times) (h : Selection dv scen.rows sel) (h' : Selection dv scen'.rows sel) (m : σ) :
    runScenarios V R dv scen m = runScenarios V R dv scen' m := by
  have e := (selection_iff dv _ _).mp h
  have e' := (selection_iff dv _ _).mp h'
  unfold runScenarios
  rw [← e, ← e', ht]

/-- No selected series: `ValueError`, and the object is untouched. -/
theorem C49_none {σ : Type} (V : Variant N α σ) {dv : String} {scen : ScmRun α} (h : ∀ r ∈ scen.rows, ¬ Selected dv r)
    (m : σ) : runScenarios V R dv scen m = (m, .error (.value "No World data available for driver_var")) := by
  have : scen.rows.filter (selects dv) = [] := by
    rw [List.filter_eq_nil_iff]
    intro r hr hs
    exact h r hr ((selects_iff dv r).mp hs)
  simp [runScenarios, this]

/-- Some selected series: no such error. -/
theorem C49_some_two_layer (D : R.Dimensional) {m : TLM N α} (hm : TLM.Reachable R m) {dv : String} {scen : ScmRun α}
    {r : Row α} (hr : r ∈ scen.rows) (hs : Selected dv r) (msg : String) :
    (runScenarios (TLM.variant R) R dv scen m).2 ≠ .error (.value msg) := by
  intro he
  have hc := TLM.Reachable.coherent R D hm
  have hmem : r ∈ scen.rows.filter (selects dv) := List.mem_filter.mpr ⟨hr, (selects_iff dv r).mpr hs⟩
  have hne : scen.rows.filter (selects dv) ≠ [] := List.ne_nil_of_mem hmem
  rcases (TLM.laws D).runScenarios_spec hc dv scen with ⟨a1, _⟩ | ⟨_, e, a2, a3⟩ | ⟨_, ts, m₁, a2, a3, a4, a5, a6⟩
  · exact hne a1
  · rw [a3] at he
    simp only [Except.error.injEq] at he
    subst he
    rcases selectTimestep_cases scen.times with h | ⟨_, _, h⟩ | ⟨_, _, h⟩ <;> rw [h] at a2 <;> cases a2
  · rcases a6 with ⟨_, a7⟩ | ⟨_, _, _, ⟨_, _, _, a8⟩ | ⟨j, r', e, b1, b2, b3⟩⟩
    · rw [a7] at he; cases he
    · rw [a8] at he; cases he
    · rw [b3] at he
      simp only [Except.error.injEq] at he
      subst he
      unfold Variant.Laws.rowRes at b2
      rw [Variant.Laws.runRow_eq] at b2
      cases hg : r'.info.get "unit" with
      | none => rw [hg] at b2; cases b2
      | some v =>
        rw [hg] at b2
        cases v with
        | num x => cases b2
        | int n => cases b2
        | str us =>
          simp only at b2
          cases hps : R.parse us with
          | none => rw [hps] at b2; cases b2
          | some u =>
            rw [hps] at b2
            simp only [TLM.simulate_variant] at b2
            by_cases hu : (u = R.wm2 ∨ R.compat u R.wm2 = true)
            · obtain ⟨m₂, hm₂⟩ := TLM.simulate_succeeds R m₁
                (d := .qty ⟨1, present r'.vals⟩ u) ⟨rfl, hu, by simp [present, List.any_filter]⟩
              rw [hm₂] at b2
              simp only at b2
              split at b2
              · cases b2
              · split at b2 <;> cases b2
            · have : (TLM.simulate R (.qty ⟨1, present r'.vals⟩ u) m₁).2 = .error (.unitError "erf") := by
                simp [TLM.simulate, Py.bind_apply, TLM.setDrivers, Py.onCore, Core.setDrivers, Core.setErf, hu]
              rcases hh : TLM.simulate R (.qty ⟨1, present r'.vals⟩ u) m₁ with ⟨m₂, e | x⟩
              · rw [hh] at this b2
                cases this; cases b2
              · rw [hh] at this; cases this

/-- Without wildcards `driver_var` selects by equality. -/
theorem C49_plain {dv : String} (h : '*' ∉ dv.toList) (v : String) : Glob dv.toList v.toList ↔ v = dv := by
  have key : ∀ p s : List Char, '*' ∉ p → (Glob p s ↔ s = p) := by
    intro p
    induction p with
    | nil =>
      intro s _
      constructor
      · intro h; cases h; rfl
      · rintro rfl; exact .nil
    | cons c p ih =>
      intro s hp
      simp only [List.mem_cons, not_or] at hp
      constructor
      · intro h
        cases h with
        | char _ h => rw [(ih _ hp.2).mp h]
        | star w h => exact absurd rfl hp.1
      · rintro rfl
        exact .char (Ne.symm hp.1) ((ih _ hp.2).mpr rfl)
  rw [key _ _ h]
  exact String.toList_inj

/-! ## C50 -/

/-- Every returned series has the metadata described by `OutputMeta`: its driver's, with only `variable`, `unit`,
`climate_model`, the parameter columns and `run_idx` set. -/
theorem C50_two_layer (D : R.Dimensional) {m m' : TLM N α} (hm : TLM.Reachable R m) {dv : String} {scen out : ScmRun α}
    (hrun : runScenarios (TLM.variant R) R dv scen m = (m', .ok out)) {sel : List (Row α)}
    (hsel : Selection dv scen.rows sel) {n : Nat} {row : Row α} (hrow : out.rows[n]? = some row) :
    ∃ r, sel[n / 4]? = some r ∧ ∃ name unit, (name, unit) ∈ [(r.info.get "variable", r.info.get "unit"),
        (some (.str "Surface Temperature|Upper"), some (.str "delta_degC")),
        (some (.str "Surface Temperature|Lower"), some (.str "delta_degC")),
        (some (.str "Heat Uptake"), some (.str "W/m^2"))][n % 4]? ∧
      OutputMeta R "two_layer" m.pub.params r.info (n / 4) name unit row.info := by
  obtain ⟨ts, m₁, -, -, hl, hr⟩ := TLM.runs_by_hand D hm hrun hsel
  have hn : n < out.rows.length := (List.getElem?_eq_some_iff.mp hrow).1
  have hlt : n / 4 < sel.length := by omega
  refine ⟨sel[n / 4], List.getElem?_eq_getElem hlt, ?_⟩
  obtain ⟨us, u, m₂, -, -, -, h0, h1, h2, h3⟩ := hr (n / 4) _ (List.getElem?_eq_getElem hlt)
  have hmod : n % 4 < 4 := Nat.mod_lt _ (by omega)
  have hdm : 4 * (n / 4) + n % 4 = n := Nat.div_add_mod n 4
  have fin : ∀ {v un : Option (MVal α)} {xs : List α} {k : Nat}, k = n → ReturnedRow R "two_layer" m.pub.params scen out
      (n / 4) sel[n / 4] k v un xs → OutputMeta R "two_layer" m.pub.params (sel[n / 4]).info (n / 4) v un row.info := by
    rintro v un xs k rfl ⟨row', g1, g2, -⟩
    rw [hrow] at g1; cases g1; exact g2
  rcases (by omega : n % 4 = 0 ∨ n % 4 = 1 ∨ n % 4 = 2 ∨ n % 4 = 3) with h | h | h | h <;> rw [h]
  · exact ⟨_, _, rfl, fin (by omega) h0⟩
  · exact ⟨_, _, rfl, fin (by omega) h1⟩
  · exact ⟨_, _, rfl, fin (by omega) h2⟩
  · exact ⟨_, _, rfl, fin (by omega) h3⟩

/-- The same for the impulse response model. -/
theorem C50_impulse_response (D : R.Dimensional) {m m' : IRM N α} (hm : IRM.Reachable R m) {dv : String}
    {scen out : ScmRun α} (hrun : runScenarios (IRM.variant R) R dv scen m = (m', .ok out)) {sel : List (Row α)}
    (hsel : Selection dv scen.rows sel) {n : Nat} {row : Row α} (hrow : out.rows[n]? = some row) :
    ∃ r, sel[n / 5]? = some r ∧ ∃ name unit, (name, unit) ∈ [(r.info.get "variable", r.info.get "unit"),
        (some (.str "Surface Temperature|Box 1"), some (.str "delta_degC")),
        (some (.str "Surface Temperature|Box 2"), some (.str "delta_degC")),
        (some (.str "Surface Temperature"), some (.str "delta_degC")),
        (some (.str "Heat Uptake"), some (.str "W/m^2"))][n % 5]? ∧
      OutputMeta R "two_timescale_impulse_response" m.pub.params r.info (n / 5) name unit row.info := by
  obtain ⟨ts, m₁, -, -, hl, hr⟩ := IRM.runs_by_hand D hm hrun hsel
  have hn : n < out.rows.length := (List.getElem?_eq_some_iff.mp hrow).1
  have hlt : n / 5 < sel.length := by omega
  refine ⟨sel[n / 5], List.getElem?_eq_getElem hlt, ?_⟩
  obtain ⟨us, u, m₂, -, -, -, h0, h1, h2, h3, h4⟩ := hr (n / 5) _ (List.getElem?_eq_getElem hlt)
  have hmod : n % 5 < 5 := Nat.mod_lt _ (by omega)
  have hdm : 5 * (n / 5) + n % 5 = n := Nat.div_add_mod n 5
  have fin : ∀ {v un : Option (MVal α)} {xs : List α} {k : Nat}, k = n →
      ReturnedRow R "two_timescale_impulse_response" m.pub.params scen out (n / 5) sel[n / 5] k v un xs →
      OutputMeta R "two_timescale_impulse_response" m.pub.params (sel[n / 5]).info (n / 5) v un row.info := by
    rintro v un xs k rfl ⟨row', g1, g2, -⟩
    rw [hrow] at g1; cases g1; exact g2
  rcases (by omega : n % 5 = 0 ∨ n % 5 = 1 ∨ n % 5 = 2 ∨ n % 5 = 3 ∨ n % 5 = 4) with h | h | h | h | h <;> rw [h]
  · exact ⟨_, _, rfl, fin (by omega) h0⟩
  · exact ⟨_, _, rfl, fin (by omega) h1⟩
  · exact ⟨_, _, rfl, fin (by omega) h2⟩
  · exact ⟨_, _, rfl, fin (by omega) h3⟩
  · exact ⟨_, _, rfl, fin (by omega) h4⟩

/-! ## C51 -/

/-- An axis that is neither yearly nor monthly: `NotImplementedError`, and the object is untouched. -/
theorem C51_refused {σ : Type} (V : Variant N α σ) {dv : String} {scen : ScmRun α} {r : Row α} (hr : r ∈ scen.rows)
    (hs : Selected dv r) {jan1 : Int → Int} (hj : IsJan1 jan1) (hy : ¬ YearlyAxis jan1 scen.times)
    (hmo : ¬ MonthlyAxis scen.times) (m : σ) : runScenarios V R dv scen m = (m, .error .notImplemented) := by
  have hmem : r ∈ scen.rows.filter (selects dv) := List.mem_filter.mpr ⟨hr, (selects_iff dv r).mpr hs⟩
  have hne : (scen.rows.filter (selects dv)).isEmpty = false := by
    cases h : scen.rows.filter (selects dv) <;> simp_all
  simp [runScenarios, hne, (C51_select hj scen.times).2.2.mpr ⟨hy, hmo⟩]

/-- After a successful call `delta_t` is one year if the axis is yearly and one month otherwise; every other public
parameter is unchanged. -/
theorem C51_two_layer (D : R.Dimensional) {m m' : TLM N α} (hm : TLM.Reachable R m) {dv : String} {scen out : ScmRun α}
    (hrun : runScenarios (TLM.variant R) R dv scen m = (m', .ok out)) {jan1 : Int → Int} (hj : IsJan1 jan1) :
    (YearlyAxis jan1 scen.times ∧ m'.pub = { m.pub with deltaT := ⟨Arith.ofNat 1, R.yr⟩ }) ∨
    (¬ YearlyAxis jan1 scen.times ∧ MonthlyAxis scen.times ∧ m'.pub = { m.pub with deltaT := ⟨Arith.ofNat 1, R.mon⟩ }) := by
  obtain ⟨ts, m₁, a1, a2, a3, a4, a5, a6, -⟩ := (TLM.laws D).returned (TLM.Reachable.coherent R D hm) hrun
  obtain ⟨s1, s2, -⟩ := C51_select hj scen.times
  cases ts with
  | yearly => exact Or.inl ⟨s1.mp a1, a6.trans a4⟩
  | monthly => exact Or.inr ⟨(s2.mp a1).1, (s2.mp a1).2, a6.trans a4⟩

/-- The same for the impulse response model. -/
theorem C51_impulse_response (D : R.Dimensional) {m m' : IRM N α} (hm : IRM.Reachable R m) {dv : String}
    {scen out : ScmRun α} (hrun : runScenarios (IRM.variant R) R dv scen m = (m', .ok out)) {jan1 : Int → Int}
    (hj : IsJan1 jan1) :
    (YearlyAxis jan1 scen.times ∧ m'.pub = { m.pub with deltaT := ⟨Arith.ofNat 1, R.yr⟩ }) ∨
    (¬ YearlyAxis jan1 scen.times ∧ MonthlyAxis scen.times ∧ m'.pub = { m.pub with deltaT := ⟨Arith.ofNat 1, R.mon⟩ }) := by
  obtain ⟨ts, m₁, a1, a2, a3, a4, a5, a6, -⟩ := (IRM.laws D).returned (IRM.Reachable.coherent R hm) hrun
  obtain ⟨s1, s2, -⟩ := C51_select hj scen.times
  cases ts with
  | yearly => exact Or.inl ⟨s1.mp a1, a6.trans a4⟩
  | monthly => exact Or.inr ⟨(s2.mp a1).1, (s2.mp a1).2, a6.trans a4⟩

/-! ## C54 -/

/-- Whatever happens in a call, public parameters other than `delta_t` are unchanged, `delta_t` is unchanged or the
selected step, and any later call does what it would have done without this one. -/
theorem C54_two_layer (D : R.Dimensional) {m : TLM N α} (hm : TLM.Reachable R m) (dv : String) (scen : ScmRun α) :
    ((runScenarios (TLM.variant R) R dv scen m).1.pub = m.pub ∨ ∃ dt, AxisStep R scen.times dt ∧
      (runScenarios (TLM.variant R) R dv scen m).1.pub = { m.pub with deltaT := dt }) ∧
    ∀ dv' scen', (runScenarios (TLM.variant R) R dv' scen' (runScenarios (TLM.variant R) R dv scen m).1).2 =
      (runScenarios (TLM.variant R) R dv' scen' m).2 :=
  ⟨((TLM.laws D).runScenarios_pub (TLM.Reachable.coherent R D hm) dv scen).2.imp_right fun ⟨ts, h1, h2⟩ =>
      ⟨ts.qty R, (axisStep_iff _ _).mpr ⟨ts, h1, rfl⟩, h2⟩,
    fun dv' scen' => (TLM.laws D).runScenarios_again (TLM.Reachable.coherent R D hm) dv scen dv' scen'⟩

/-- The same for the impulse response model. -/
theorem C54_impulse_response (D : R.Dimensional) {m : IRM N α} (hm : IRM.Reachable R m) (dv : String) (scen : ScmRun α) :
    ((runScenarios (IRM.variant R) R dv scen m).1.pub = m.pub ∨ ∃ dt, AxisStep R scen.times dt ∧
      (runScenarios (IRM.variant R) R dv scen m).1.pub = { m.pub with deltaT := dt }) ∧
    ∀ dv' scen', (runScenarios (IRM.variant R) R dv' scen' (runScenarios (IRM.variant R) R dv scen m).1).2 =
      (runScenarios (IRM.variant R) R dv' scen' m).2 :=
  ⟨((IRM.laws D).runScenarios_pub (IRM.Reachable.coherent R hm) dv scen).2.imp_right fun ⟨ts, h1, h2⟩ =>
      ⟨ts.qty R, (axisStep_iff _ _).mpr ⟨ts, h1, rfl⟩, h2⟩,
    fun dv' scen' => (IRM.laws D).runScenarios_again (IRM.Reachable.coherent R hm) dv scen dv' scen'⟩

/-! ## C55 -/

/-- Feeding the result back in returns it again, provided `driver_var` does not itself match an output variable and every
time of the axis is used by some selected series. -/
theorem C55_two_layer (hnan : Arith.isNaN (Arith.nan : α) = true) (D : R.Dimensional) {m m' : TLM N α}
    (hm : TLM.Reachable R m) {dv : String} {scen out : ScmRun α} (hw : scen.WellFormed)
    (hused : ∀ i, i < scen.times.length → ∃ r ∈ scen.rows, Selected dv r ∧ ∃ x, r.vals[i]? = some x ∧ Arith.isNaN x = false)
    (hnames : ∀ v ∈ ["Surface Temperature|Upper", "Surface Temperature|Lower", "Heat Uptake"], ¬ Glob dv.toList v.toList)
    (hrun : runScenarios (TLM.variant R) R dv scen m = (m', .ok out)) :
    (runScenarios (TLM.variant R) R dv out m').2 = .ok out := by
  refine (TLM.laws D).feedback hnan (TLM.Reachable.coherent R D hm) hw.values ?_ ?_ hrun
  · intro i hi
    obtain ⟨r, h1, h2, h3⟩ := hused i hi
    exact ⟨r, List.mem_filter.mpr ⟨h1, (selects_iff dv r).mpr h2⟩, h3⟩
  · intro n hn
    apply hnames
    simp only [TLM.laws, List.mem_cons, List.not_mem_nil, or_false] at hn ⊢
    rcases hn with rfl | rfl | rfl <;> simp

/-- The same for the impulse response model. -/
theorem C55_impulse_response (hnan : Arith.isNaN (Arith.nan : α) = true) (D : R.Dimensional) {m m' : IRM N α}
    (hm : IRM.Reachable R m) {dv : String} {scen out : ScmRun α} (hw : scen.WellFormed)
    (hused : ∀ i, i < scen.times.length → ∃ r ∈ scen.rows, Selected dv r ∧ ∃ x, r.vals[i]? = some x ∧ Arith.isNaN x = false)
    (hnames : ∀ v ∈ ["Surface Temperature|Box 1", "Surface Temperature|Box 2", "Surface Temperature", "Heat Uptake"],
      ¬ Glob dv.toList v.toList)
    (hrun : runScenarios (IRM.variant R) R dv scen m = (m', .ok out)) :
    (runScenarios (IRM.variant R) R dv out m').2 = .ok out := by
  refine (IRM.laws D).feedback hnan (IRM.Reachable.coherent R hm) hw.values ?_ ?_ hrun
  · intro i hi
    obtain ⟨r, h1, h2, h3⟩ := hused i hi
    exact ⟨r, List.mem_filter.mpr ⟨h1, (selects_iff dv r).mpr h2⟩, h3⟩
  · intro n hn
    apply hnames
    simp only [IRM.laws, List.mem_cons, List.not_mem_nil, or_false] at hn ⊢
    rcases hn with rfl | rfl | rfl | rfl <;> simp

/-! ## C56 -/

/-- Two selected series that differ in no column that is kept: the call raises (and returns nothing). -/
theorem C56_two_layer (D : R.Dimensional) {m : TLM N α} (hm : TLM.Reachable R m) {dv : String} {scen : ScmRun α}
    (hw : scen.WellFormed) {sel : List (Row α)} (hsel : Selection dv scen.rows sel) {i j : Nat} {r r' : Row α} (hij : i ≠ j)
    (hi : sel[i]? = some r) (hj : sel[j]? = some r') (hd : ¬ Distinguishable R m.pub.params r r') :
    ∃ e, (runScenarios (TLM.variant R) R dv scen m).2 = .error e ∧ (e = .notImplemented ∨ e = .nonUniqueMeta) := by
  have hs := (selection_iff dv _ _).mp hsel
  subst hs
  have hsub : ∀ r ∈ scen.rows.filter (selects dv), r ∈ scen.rows := fun r hr => (List.mem_filter.mp hr).1
  have hr := hsub _ (List.mem_of_getElem? hi)
  have hr' := hsub _ (List.mem_of_getElem? hj)
  rcases (TLM.laws D).collision (TLM.Reachable.coherent R D hm) hij hi hj (hw.columns r hr r' hr') (hw.nodup r hr)
    (fun c h1 h2 => by by_contra h3; exact hd ⟨c, h1, h2, h3⟩) with ⟨e, h1, h2⟩ | ⟨m₁, h⟩
  · refine ⟨e, by rw [h2], Or.inl ?_⟩
    rcases selectTimestep_cases scen.times with h | ⟨_, _, h⟩ | ⟨_, _, h⟩ <;> rw [h] at h1 <;> cases h1
    rfl
  · exact ⟨_, by rw [h], Or.inr rfl⟩

/-- The same for the impulse response model. -/
theorem C56_impulse_response (D : R.Dimensional) {m : IRM N α} (hm : IRM.Reachable R m) {dv : String} {scen : ScmRun α}
    (hw : scen.WellFormed) {sel : List (Row α)} (hsel : Selection dv scen.rows sel) {i j : Nat} {r r' : Row α} (hij : i ≠ j)
    (hi : sel[i]? = some r) (hj : sel[j]? = some r') (hd : ¬ Distinguishable R m.pub.params r r') :
    ∃ e, (runScenarios (IRM.variant R) R dv scen m).2 = .error e ∧ (e = .notImplemented ∨ e = .nonUniqueMeta) := by
  have hs := (selection_iff dv _ _).mp hsel
  subst hs
  have hsub : ∀ r ∈ scen.rows.filter (selects dv), r ∈ scen.rows := fun r hr => (List.mem_filter.mp hr).1
  have hr := hsub _ (List.mem_of_getElem? hi)
  have hr' := hsub _ (List.mem_of_getElem? hj)
  rcases (IRM.laws D).collision (IRM.Reachable.coherent R hm) hij hi hj (hw.columns r hr r' hr') (hw.nodup r hr)
    (fun c h1 h2 => by by_contra h3; exact hd ⟨c, h1, h2, h3⟩) with ⟨e, h1, h2⟩ | ⟨m₁, h⟩
  · refine ⟨e, by rw [h2], Or.inl ?_⟩
    rcases selectTimestep_cases scen.times with h | ⟨_, _, h⟩ | ⟨_, _, h⟩ <;> rw [h] at h1 <;> cases h1
    rfl
  · exact ⟨_, by rw [h], Or.inr rfl⟩

/-- A selected series with variable and unit of an output: the call raises. -/
theorem C56_output_name_two_layer (D : R.Dimensional) {m : TLM N α} (hm : TLM.Reachable R m) {dv : String}
    {scen : ScmRun α} {r : Row α} (hr : r ∈ scen.rows) (hs : Selected dv r) {v u : String}
    (hvu : (v, u) ∈ [("Surface Temperature|Upper", "delta_degC"), ("Surface Temperature|Lower", "delta_degC"),
      ("Heat Uptake", "W/m^2")])
    (h1 : r.info.get "variable" = some (.str v)) (h2 : r.info.get "unit" = some (.str u)) :
    ∃ e, (runScenarios (TLM.variant R) R dv scen m).2 = .error e :=
  (TLM.laws D).named_as_output (TLM.Reachable.coherent R D hm)
    (List.mem_filter.mpr ⟨hr, (selects_iff dv r).mpr hs⟩) hvu h1 h2

/-- The same for the impulse response model. -/
theorem C56_output_name_impulse_response (D : R.Dimensional) {m : IRM N α} (hm : IRM.Reachable R m) {dv : String}
    {scen : ScmRun α} {r : Row α} (hr : r ∈ scen.rows) (hs : Selected dv r) {v u : String}
    (hvu : (v, u) ∈ [("Surface Temperature|Box 1", "delta_degC"), ("Surface Temperature|Box 2", "delta_degC"),
      ("Surface Temperature", "delta_degC"), ("Heat Uptake", "W/m^2")])
    (h1 : r.info.get "variable" = some (.str v)) (h2 : r.info.get "unit" = some (.str u)) :
    ∃ e, (runScenarios (IRM.variant R) R dv scen m).2 = .error e :=
  (IRM.laws D).named_as_output (IRM.Reachable.coherent R hm)
    (List.mem_filter.mpr ⟨hr, (selects_iff dv r).mpr hs⟩) hvu h1 h2

/-- In a successful result any two series differ in some metadata column. -/
theorem C56_distinct_two_layer (D : R.Dimensional) {m m' : TLM N α} (hm : TLM.Reachable R m) {dv : String}
    {scen out : ScmRun α} (hrun : runScenarios (TLM.variant R) R dv scen m = (m', .ok out)) {a b : Nat} (hab : a ≠ b)
    {ra rb : Row α} (ha : out.rows[a]? = some ra) (hb : out.rows[b]? = some rb) : ∃ c, ra.info.get c ≠ rb.info.get c :=
  (TLM.laws D).distinct (TLM.Reachable.coherent R D hm) hrun hab ha hb

/-- The same for the impulse response model. -/
theorem C56_distinct_impulse_response (D : R.Dimensional) {m m' : IRM N α} (hm : IRM.Reachable R m) {dv : String}
    {scen out : ScmRun α} (hrun : runScenarios (IRM.variant R) R dv scen m = (m', .ok out)) {a b : Nat} (hab : a ≠ b)
    {ra rb : Row α} (ha : out.rows[a]? = some ra) (hb : out.rows[b]? = some rb) : ∃ c, ra.info.get c ≠ rb.info.get c :=
  (IRM.laws D).distinct (IRM.Reachable.coherent R hm) hrun hab ha hb

end TwoLayer
