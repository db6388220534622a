import Verif.Spec.ScenarioRounding
import Verif.Props.Rounding
import Verif.Props.ScenarioExamples

/-!
# C109: `run_scenarios` in floating-point arithmetic

C47 says which runs the returned series come from, C67 how accurate a run is.  Together: how accurate the returned numbers
are, whatever the scenarios.  `ReturnedNear` is in `Spec/ScenarioRounding.lean`, `AxisStep`, `Selection`, `present` in
`Spec/Scenarios.lean`, the rest in `Spec/Rounding.lean` and `Spec/Equations.lean`.
-/

set_option linter.unusedSimpArgs false
set_option linter.unusedSectionVars false

namespace TwoLayer
section
variable {N : Type} [Fintype N] [DecidableEq N] {r : Rounding} {R : Registry N (FR r)}

private theorem tl_step {m m₁ : TLM N (FR r)} (hm : TLM.Reachable R m) {v : Arg N (FR r)} {o}
    (h : TLM.setDeltaT R v m = (m₁, o)) : TLM.Reachable R m₁ := by
  obtain ⟨args, m0, hist, h0, h1⟩ := hm
  refine ⟨args, m0, hist ++ [.setDeltaT v], h0, ?_⟩
  have : TLM.after R m0 (hist ++ [.setDeltaT v]) = (TLM.setDeltaT R v (TLM.after R m0 hist)).1 := by
    simp [TLM.after, TLM.call]
  rw [this, ← h1, h]

private theorem ir_step {m m₁ : IRM N (FR r)} (hm : IRM.Reachable R m) {v : Arg N (FR r)} {o}
    (h : IRM.setDeltaT R v m = (m₁, o)) : IRM.Reachable R m₁ := by
  obtain ⟨args, m0, hist, h0, h1⟩ := hm
  refine ⟨args, m0, hist ++ [.setDeltaT v], h0, ?_⟩
  have : IRM.after R m0 (hist ++ [.setDeltaT v]) = (IRM.setDeltaT R v (IRM.after R m0 hist)).1 := by
    simp [IRM.after, IRM.call]
  rw [this, ← h1, h]

private theorem axis_unit {times : List Int} {dt : Qty N (FR r)} (h : AxisStep R times dt) :
    dt.unit = R.yr ∨ dt.unit = R.mon := by
  obtain ⟨-, -, ⟨-, h⟩ | ⟨-, -, h⟩⟩ := h <;> rw [h]
  · exact Or.inl rfl
  · exact Or.inr rfl

/-- **C109** (two-layer).  Positive parameters, `a = 0`, every operation rounded with relative error at most `u`; the step
belonging to the axis of the scenarios, `dt` seconds, resolves both layers.  If `run_scenarios` succeeds, then for every
selected series `row` whose `n` non-missing values are `F 0, …, F (n-1)` W/m², all within `±l K`, the three output rows hold
at the times of those values numbers that differ from the exact solution of the discrete equations by multiples of `u K`
that depend neither on `n` nor on the other series. -/
theorem C109_two_layer (D : R.Dimensional) {u μ Ω K : ℝ} (hr : r.Accurate u μ Ω) (hu : 0 ≤ u) (hu1 : u ≤ 1 / 100)
    {m m' : TLM N (FR r)} (hm : TLM.Reachable R m) {p : TLPar} {dt₀ : ℝ} (hp : m.FPhys R { p with dt := dt₀ })
    {dv : String} {scen out : ScmRun (FR r)} (hrun : runScenarios (TLM.variant R) R dv scen m = (m', .ok out))
    (hdt : ∀ q, AxisStep R scen.times q → IsFNum R q R.s p.dt) (hpos : p.Pos) (hres : p.Resolved) (ha : p.a = 0)
    (hin : p.InRange K μ Ω) (hK : 0 ≤ K) (hκ : 48 * u * p.memory ≤ 1)
    {sel : List (Row (FR r))} (hsel : Selection dv scen.rows sel) {i : ℕ} {row : Row (FR r)} (hi : sel[i]? = some row)
    {us : String} {un : Units N} (hus : row.info.get "unit" = some (.str us)) (hun : R.parse us = some un)
    {n : ℕ} (hn : n ≠ 0) {F : ℕ → ℝ} (hd : IsFForcing R (.qty ⟨1, present row.vals⟩ un) n F)
    (hF : ∀ j < n, |F j| ≤ p.l * K) {T TD U : ℕ → ℝ} (hex : TLEq p n F T TD U) :
    ReturnedNear R "two_layer" m.pub.params scen out i row (4 * i + 1) "Surface Temperature|Upper" "delta_degC" n T
      (48 * u * K * ((p.C + p.e * p.D) / (p.dt * p.l))) ∧
    ReturnedNear R "two_layer" m.pub.params scen out i row (4 * i + 2) "Surface Temperature|Lower" "delta_degC" n TD
      (48 * u * K * p.memory) ∧
    ReturnedNear R "two_layer" m.pub.params scen out i row (4 * i + 3) "Heat Uptake" "W/m^2" n U
      (u * (32 + 96 * p.memory) * (K * (p.C + p.D) / p.dt)) := by
  obtain ⟨q, m₁, hax, hset, -, hrows⟩ := C47_two_layer D hm hrun hsel
  obtain ⟨us', un', m₂, hus', hun', hsim, -, r1, r2, r3⟩ := hrows i row hi
  rw [hus] at hus'
  cases hus'
  rw [hun] at hun'
  cases hun'
  have hreach := tl_step hm hset
  rw [TLM.setDeltaT_good (UnitOk.time D (axis_unit hax)).1, Prod.mk.injEq] at hset
  obtain ⟨hset, -⟩ := hset
  have hp1 : m₁.FPhys R p := by
    subst hset
    exact ⟨hp.C, hp.D, hp.lambda0, hp.a, hp.efficacy, hp.eta, hdt q hax⟩
  obtain ⟨T', TD', U', ⟨m₃, hs, ho⟩, hb⟩ := C67_two_layer D hr hu hu1 hreach hp1 hpos hres ha hin hK hκ hn hd hF hex
  rw [hsim, Prod.mk.injEq] at hs
  obtain ⟨hs, -⟩ := hs
  subst hs
  simp only [TLM.outputs, List.cons.injEq, Prod.mk.injEq, true_and, and_true] at ho
  obtain ⟨o1, o2, o3⟩ := ho
  rw [o1] at r1
  rw [o2] at r2
  rw [o3] at r3
  exact ⟨⟨_, r1, fun j hj => (hb j hj).1⟩, ⟨_, r2, fun j hj => (hb j hj).2.1⟩, ⟨_, r3, fun j hj => (hb j hj).2.2⟩⟩

/-- **C109** (impulse response).  The same for the box temperatures and their sum. -/
theorem C109_impulse_response (D : R.Dimensional) {u μ Ω M : ℝ} (hr : r.Accurate u μ Ω) (hu : 0 ≤ u) (hu1 : u ≤ 1 / 100)
    {m m' : IRM N (FR r)} (hm : IRM.Reachable R m) {p : IRPar} {dt₀ : ℝ} (hp : m.FPhys R { p with dt := dt₀ })
    {dv : String} {scen out : ScmRun (FR r)} (hrun : runScenarios (IRM.variant R) R dv scen m = (m', .ok out))
    (hdt : ∀ q, AxisStep R scen.times q → IsFNum R q R.yr p.dt) (hok : p.Ok) (hdt0 : 0 < p.dt)
    (hin : p.InRange M μ Ω) (hM : 0 ≤ M) (hκ : 32 * u * (1 + p.d2 / p.dt) ≤ 1)
    {sel : List (Row (FR r))} (hsel : Selection dv scen.rows sel) {i : ℕ} {row : Row (FR r)} (hi : sel[i]? = some row)
    {us : String} {un : Units N} (hus : row.info.get "unit" = some (.str us)) (hun : R.parse us = some un)
    {n : ℕ} (hn : n ≠ 0) {F : ℕ → ℝ} (hd : IsFForcing R (.qty ⟨1, present row.vals⟩ un) n F)
    (hF : ∀ j < n, |F j| ≤ M) {T1 T2 : ℕ → ℝ} (h1 : BoxEq p.q1 p.d1 p.dt n F T1) (h2 : BoxEq p.q2 p.d2 p.dt n F T2) :
    ReturnedNear R "two_timescale_impulse_response" m.pub.params scen out i row (5 * i + 1) "Surface Temperature|Box 1"
      "delta_degC" n T1 (32 * u * (p.q1 * M) * (1 + p.d1 / p.dt)) ∧
    ReturnedNear R "two_timescale_impulse_response" m.pub.params scen out i row (5 * i + 2) "Surface Temperature|Box 2"
      "delta_degC" n T2 (32 * u * (p.q2 * M) * (1 + p.d2 / p.dt)) ∧
    ReturnedNear R "two_timescale_impulse_response" m.pub.params scen out i row (5 * i + 3) "Surface Temperature"
      "delta_degC" n (fun j => T1 j + T2 j) (32 * u * (p.q1 * M) * (1 + p.d1 / p.dt) +
        32 * u * (p.q2 * M) * (1 + p.d2 / p.dt) + 2 * u * ((p.q1 + p.q2) * M)) := by
  obtain ⟨q, m₁, hax, hset, -, hrows⟩ := C47_impulse_response D hm hrun hsel
  obtain ⟨us', un', m₂, hus', hun', hsim, -, r1, r2, r3, -⟩ := hrows i row hi
  rw [hus] at hus'
  cases hus'
  rw [hun] at hun'
  cases hun'
  have hreach := ir_step hm hset
  rw [IRM.setDeltaT_good (UnitOk.time D (axis_unit hax)).2, Prod.mk.injEq] at hset
  obtain ⟨hset, -⟩ := hset
  have hp1 : m₁.FPhys R p := by
    subst hset
    exact ⟨hp.q1, hp.q2, hp.d1, hp.d2, hp.efficacy, hdt q hax⟩
  obtain ⟨T1', T2', T', us', ⟨m₃, hs, ho⟩, hb⟩ := C67_impulse_response hr hu hu1 hreach hp1 hok hdt0 hin hM hκ hn hd hF h1 h2 hsim
  rw [hsim, Prod.mk.injEq] at hs
  obtain ⟨hs, -⟩ := hs
  subst hs
  simp only [IRM.outputs, List.cons.injEq, Prod.mk.injEq, true_and, and_true] at ho
  obtain ⟨o1, o2, o3, -⟩ := ho
  rw [o1] at r1
  rw [o2] at r2
  rw [o3] at r3
  exact ⟨⟨_, r1, fun j hj => (hb j hj).1⟩, ⟨_, r2, fun j hj => (hb j hj).2.1⟩, ⟨_, r3, fun j hj => (hb j hj).2.2⟩⟩

/-- **C109** (impulse response, efficacy 1, parameters in the units of the model).  The same for the heat uptake. -/
theorem C109_impulse_response_uptake (D : R.Dimensional) {u μ Ω M : ℝ} (hr : r.Accurate u μ Ω) (hu : 0 ≤ u)
    (hu1 : u ≤ 1 / 100) (hμ0 : 0 ≤ μ) (ho : r.fl 1 = 1)
    {m m' : IRM N (FR r)} (hm : IRM.Reachable R m) {p : IRPar} {dt₀ : ℝ} (hp : m.FPhys R { p with dt := dt₀ })
    (hpl : m.PlainUnits R)
    {dv : String} {scen out : ScmRun (FR r)} (hrun : runScenarios (IRM.variant R) R dv scen m = (m', .ok out))
    (hdt : ∀ q, AxisStep R scen.times q → IsFNum R q R.yr p.dt) (hok : p.Ok) (hdt0 : 0 < p.dt)
    (hin : p.InRange M μ Ω) (hci : p.ConvInRange μ Ω) (hM : 0 ≤ M) (hκ : 32 * u * (1 + p.d2 / p.dt) ≤ 1)
    {sel : List (Row (FR r))} (hsel : Selection dv scen.rows sel) {i : ℕ} {row : Row (FR r)} (hi : sel[i]? = some row)
    {us : String} {un : Units N} (hus : row.info.get "unit" = some (.str us)) (hun : R.parse us = some un)
    {n : ℕ} (hn : n ≠ 0) {F : ℕ → ℝ} (hd : IsFForcing R (.qty ⟨1, present row.vals⟩ un) n F)
    (hF : ∀ j < n, |F j| ≤ M) {T1 T2 U : ℕ → ℝ} (hex : IREq p 1 n F T1 T2 U) :
    ReturnedNear R "two_timescale_impulse_response" m.pub.params scen out i row (5 * i + 4) "Heat Uptake"
      "W/m^2" n U (u * M * (59 + 32 * (p.d2 / p.dt))) := by
  obtain ⟨q, m₁, hax, hset, -, hrows⟩ := C47_impulse_response D hm hrun hsel
  obtain ⟨us', un', m₂, hus', hun', hsim, -, -, -, -, r4⟩ := hrows i row hi
  rw [hus] at hus'
  cases hus'
  rw [hun] at hun'
  cases hun'
  have hreach := ir_step hm hset
  rw [IRM.setDeltaT_good (UnitOk.time D (axis_unit hax)).2, Prod.mk.injEq] at hset
  obtain ⟨hset, -⟩ := hset
  have hp1 : m₁.FPhys R p ∧ m₁.PlainUnits R := by
    subst hset
    exact ⟨⟨hp.q1, hp.q2, hp.d1, hp.d2, hp.efficacy, hdt q hax⟩, hpl.q1, hpl.q2, hpl.d1, hpl.d2, hpl.efficacy⟩
  obtain ⟨T1', T2', T', U', ⟨m₃, hs, hout⟩, hb⟩ := C67_impulse_response_uptake hr hu hu1 hμ0 ho hreach hp1.1 hp1.2 hok hdt0
    hin hci hM hκ hn hd hF hex
  rw [hsim, Prod.mk.injEq] at hs
  obtain ⟨hs, -⟩ := hs
  subst hs
  simp only [IRM.outputs, List.cons.injEq, Prod.mk.injEq, true_and, and_true] at hout
  obtain ⟨-, -, -, o4⟩ := hout
  rw [o4] at r4
  exact ⟨_, r4, hb⟩
end

/-! ## The default models in double precision -/

private theorem self (x : ℝ) (u : Units U0) : IsFNum U0.regD ⟨FR.fin x, u⟩ u x := by simp [IsFNum, Qty.toUnit, Qty.magIn]

private theorem step_s {t : U0} {x : ℕ} (hx : x < 2 ^ 53) (hne : t ≠ U0.second) (hdim : U0.dim t = U0.dim U0.second)
    (hs : (U0.scale t : ℝ) = (x : ℝ)) {y : ℝ} (hy : (x : ℝ) = y) : IsFNum U0.regD ⟨Arith.ofNat 1, u1 t⟩ U0.regD.s y := by
  subst hy
  have hne' : (u1 t : Units U0) ≠ U0.regD.s := by
    intro h
    have := congrFun h t
    simp [Registry.s, U0.regD, u1, Pi.single_apply, hne] at this
  have hc : U0.regD.compat (u1 t) U0.regD.s = true := by
    show decide (dimOf U0.dim (u1 t) = dimOf U0.dim (u1 U0.second)) = true
    have dm : ∀ n, dimOf U0.dim (u1 n) = U0.dim n := by
      intro n
      funext d
      simp [dimOf, u1, Pi.single_apply]
    rw [dm, dm, hdim]
    simp
  rw [IsFNum, toUnit_ok (Or.inr hc)]
  simp only [Qty.magIn, if_neg hne']
  congr 2
  show (FR.fin (double.fl (1 : ℕ)) : FR double) * FR.fin (double.fl (scaleOf U0.scale (u1 t) / scaleOf U0.scale (u1 U0.second))) = _
  rw [scaleOf_u1, scaleOf_u1, hs]
  have e1 : ((x : ℝ) / U0.scale U0.second : ℝ) = x := by norm_num [U0.scale]
  rw [e1, double_int (by norm_num), double_int hx, FR.fin_mul]
  rw [← Nat.cast_mul, double_int (by omega)]
  norm_num

/-- the step of an axis in seconds -/
theorem U0.axis_s {times : List Int} {jan1 : Int → Int} (hj : Cal.IsJan1 jan1) {dt : ℝ}
    (hy : Cal.YearlyAxis jan1 times → dt = 31557600) (hmo : ¬ Cal.YearlyAxis jan1 times → dt = 2629800) :
    ∀ q, AxisStep U0.regD times q → IsFNum U0.regD q U0.regD.s dt := by
  rintro q ⟨j, hj', ⟨h1, h2⟩ | ⟨h1, -, h2⟩⟩
  · rw [IsJan1.unique hj', ← IsJan1.unique hj] at h1
    rw [hy h1, h2]
    exact step_s (t := U0.year) (x := 31557600) (by norm_num) (by decide) rfl (by norm_num [U0.scale]) (by norm_num)
  · rw [IsJan1.unique hj', ← IsJan1.unique hj] at h1
    rw [hmo h1, h2]
    exact step_s (t := U0.month) (x := 2629800) (by norm_num) (by decide) rfl (by norm_num [U0.scale]) (by norm_num)

private theorem forcing {n : ℕ} {F : ℕ → ℝ} {vals : List (FR double)} (h : vals = fseries n F) :
    IsFForcing U0.regD (.qty ⟨1, vals⟩ U0.regD.wm2) n F := by
  subst h
  refine ⟨_, _, rfl, fseries_length _ _, fun i hi => ?_⟩
  have : (fseries n F : List (FR double))[i] = FR.fin (F i) := by simp [fseries]
  rw [this]
  exact ⟨self _ _, rfl⟩

/-- `TwoLayerModel()` with another time step -/
noncomputable def TLPar.defaultDt (dt : ℝ) : TLPar := { TLPar.defaultD with dt := dt }

/-- **C109** (`TwoLayerModel()` in double precision).  Whatever happened to the object before, as long as its parameters
other than `delta_t` are the default ones: on a yearly or monthly axis, `run_scenarios` succeeds for any number of series of
any length with drivers within ±100 W/m² that differ in their metadata, and at the times of the drivers the returned
temperatures are within 10⁻⁸ K, and the heat uptake within 10⁻⁵ W/m², of the exact solution of the discrete equations with
a step of one year, or month. -/
theorem C109_default {m : TLM U0 (FR double)} (hm : TLM.Reachable U0.regD m) {dt₀ : ℝ}
    (hp : m.FPhys U0.regD (TLPar.defaultDt dt₀)) {dv : String} {scen : ScmRun (FR double)} (hw : scen.WellFormed)
    {sel : List (Row (FR double))} (hsel : Selection dv scen.rows sel) (hne : sel ≠ [])
    {jan1 : Int → Int} (hj : Cal.IsJan1 jan1) (hax : Cal.YearlyAxis jan1 scen.times ∨ Cal.MonthlyAxis scen.times)
    (hdis : ∀ (i j : ℕ) (row row' : Row (FR double)), i ≠ j → sel[i]? = some row → sel[j]? = some row' →
      Distinguishable U0.regD m.pub.params row row')
    {n : ℕ → ℕ} {F : ℕ → ℕ → ℝ} (hd : Drivers sel n F) {dt : ℝ}
    (hy : Cal.YearlyAxis jan1 scen.times → dt = 31557600) (hmo : ¬ Cal.YearlyAxis jan1 scen.times → dt = 2629800)
    {T TD U : ℕ → ℕ → ℝ} (hex : ∀ i < sel.length, TLEq (TLPar.defaultDt dt) (n i) (F i) (T i) (TD i) (U i)) :
    ∃ m' out, runScenarios (TLM.variant U0.regD) U0.regD dv scen m = (m', .ok out) ∧
      ∀ (i : ℕ) (row : Row (FR double)), sel[i]? = some row →
        ReturnedNear U0.regD "two_layer" m.pub.params scen out i row (4 * i + 1) "Surface Temperature|Upper" "delta_degC"
          (n i) (T i) (1 / 10 ^ 8) ∧
        ReturnedNear U0.regD "two_layer" m.pub.params scen out i row (4 * i + 2) "Surface Temperature|Lower" "delta_degC"
          (n i) (TD i) (1 / 10 ^ 8) ∧
        ReturnedNear U0.regD "two_layer" m.pub.params scen out i row (4 * i + 3) "Heat Uptake" "W/m^2"
          (n i) (U i) (1 / 10 ^ 5) := by
  have hpar : U0.regD.parse "W/m^2" = some U0.regD.wm2 := rfl
  have hlen : ∀ (i : ℕ) (row : Row (FR double)), sel[i]? = some row → i < sel.length := fun i row h =>
    (List.getElem?_eq_some_iff.mp h).1
  have hsuc : ∃ m' out, runScenarios (TLM.variant U0.regD) U0.regD dv scen m = (m', .ok out) := by
    refine (C47_two_layer_succeeds_iff U0.dimensionalD hm hw hsel hj).mpr ⟨hne, hax, hdis, fun row hrow => ?_⟩
    obtain ⟨i, hi⟩ := List.mem_iff_getElem?.mp hrow
    have hu := hd.unit i row hi
    refine ⟨?_, ⟨_, _, hu, hpar, Or.inl rfl⟩, ?_, ?_, ?_⟩
    · have hv := hd.values i row hi
      have hn := hd.some_value i (hlen i row hi)
      have hmem : (FR.fin (F i 0) : FR double) ∈ present row.vals := by
        rw [hv, fseries, List.mem_map]
        exact ⟨0, List.mem_range.mpr (by omega), rfl⟩
      refine ⟨_, (List.mem_filter.mp hmem).1, rfl⟩
    · rw [hu]; simp
    · rw [hu]; simp
    · exact fun h => hd.name i row hi h.1
  obtain ⟨m', out, hrun⟩ := hsuc
  refine ⟨m', out, hrun, fun i row hi => ?_⟩
  have hil := hlen i row hi
  have hdt : 2629800 ≤ dt ∧ dt ≤ 31557600 := by
    by_cases h : Cal.YearlyAxis jan1 scen.times
    · rw [hy h]; norm_num
    · rw [hmo h]; norm_num
  obtain ⟨t1, t2⟩ := hdt
  obtain ⟨l1, l2⟩ := TLPar.defaultD_l
  obtain ⟨k1, k2⟩ := TLPar.defaultD_h
  norm_num only at l1 l2 k1 k2
  set p := TLPar.defaultDt dt with hpdef
  have eC : p.C = 209050000 := rfl
  have eD : p.D = 5017200000 := rfl
  have ee : p.e = 1 := rfl
  have et : p.dt = dt := rfl
  have el : p.l = TLPar.defaultD.l := rfl
  have eh : p.h = TLPar.defaultD.h := rfl
  have hdt0 : 0 < dt := by linarith only [t1]
  have hpos : p.Pos := ⟨TLPar.defaultD_pos.C, TLPar.defaultD_pos.D, TLPar.defaultD_pos.l, TLPar.defaultD_pos.e,
    TLPar.defaultD_pos.h, hdt0⟩
  have hres : p.Resolved := by
    refine ⟨hpos.C, hpos.D, hpos.l, hpos.e.le, hpos.h.le, hpos.dt, ?_, ?_⟩
    · rw [et, el, ee, eh, eC]
      calc dt * (TLPar.defaultD.l + 1 * TLPar.defaultD.h) ≤ 31557600 * (5 / 4 + 1 * (81 / 100)) := by gcongr
        _ ≤ _ := by norm_num
    · rw [et, eh, eD]
      calc dt * TLPar.defaultD.h ≤ 31557600 * (81 / 100) := by gcongr
        _ ≤ _ := by norm_num
  have hfor : (p.C + p.e * p.D) / (p.dt * p.l) ≤ 1610 := by
    rw [eC, eD, ee, et, el]
    calc (209050000 + 1 * 5017200000 : ℝ) / (dt * TLPar.defaultD.l) ≤ (209050000 + 1 * 5017200000) / (2629800 * (31 / 25)) := by
          gcongr
      _ ≤ _ := by norm_num
  have hmem : p.memory ≤ 4030 := by
    have h2 : p.D / (p.dt * p.h) ≤ 2416 := by
      rw [eD, et, eh]
      calc (5017200000 : ℝ) / (dt * TLPar.defaultD.h) ≤ 5017200000 / (2629800 * (79 / 100)) := by gcongr
        _ ≤ _ := by norm_num
    unfold TLPar.memory
    linarith only [hfor, h2]
  have hin : p.InRange 81 (2⁻¹ ^ 1022) (10 ^ 20) := by
    have hμ := small_normal
    have key : ∀ x : ℝ, 10⁻¹ ^ 20 ≤ x → x ≤ 10 ^ 18 → (2⁻¹ : ℝ) ^ 1022 ≤ x ∧ 32 * x ≤ 10 ^ 20 :=
      fun x a b => ⟨hμ.trans a, by linarith only [b]⟩
    have key2 : ∀ x y z : ℝ, 1 / 100 ≤ x → x ≤ 10 ^ 6 → 1 / 10 ^ 10 ≤ y → y ≤ 1 → z = x * y →
        (2⁻¹ : ℝ) ^ 1022 ≤ z ∧ 32 * z ≤ 10 ^ 20 := by
      intro x y z h1 h2 h3 h4 h5
      rw [h5]
      refine key _ ?_ ?_
      · calc (10⁻¹ ^ 20 : ℝ) ≤ 1 / 100 * (1 / 10 ^ 10) := by norm_num
          _ ≤ x * y := by gcongr
      · calc x * y ≤ 10 ^ 6 * 1 := by gcongr
          _ ≤ _ := by norm_num
    unfold TLPar.InRange
    rw [eC, eD, ee, et, el, eh]
    generalize TLPar.defaultD.l = l at l1 l2
    generalize TLPar.defaultD.h = h at k1 k2
    simp only [List.forall_mem_cons, List.not_mem_nil, IsEmpty.forall_iff, forall_const, and_true]
    have d1 : 1 / 100 ≤ dt / 209050000 ∧ dt / 209050000 ≤ 1 := by constructor <;> linarith only [t1, t2]
    have d2 : 1 / 10 ^ 10 ≤ dt / 5017200000 ∧ dt / 5017200000 ≤ 1 := by constructor <;> norm_num only <;> linarith only [t1, t2]
    have d3 : 1 / 10 ^ 8 ≤ 1 / dt ∧ 1 / dt ≤ 1 / 10 ^ 6 := by
      refine ⟨one_div_le_one_div_of_le hdt0 (by linarith only [t2]), one_div_le_one_div_of_le (by norm_num) (by linarith only [t1])⟩
    refine ⟨?_, ?_, ?_, ?_, ?_, ?_, ?_, ?_, ?_, ?_, ?_, ?_, ?_, ?_, ?_⟩
    · apply key <;> norm_num only <;> linarith only [l1, l2, k1, k2]
    · apply key <;> norm_num only <;> linarith only [l1, l2, k1, k2]
    · apply key <;> norm_num only <;> linarith only [l1, l2, k1, k2]
    · apply key <;> norm_num only <;> linarith only [l1, l2, k1, k2]
    · apply key <;> norm_num only
    · apply key <;> norm_num only <;> linarith only [l1, l2, k1, k2]
    · refine key2 (l * 81) (dt / 209050000) _ ?_ ?_ ?_ d1.2 (by ring)
      · linarith only [l1]
      · linarith only [l2]
      · linarith only [d1.1]
    · apply key <;> norm_num only <;> linarith only [l1, l2, k1, k2]
    · apply key <;> norm_num only <;> linarith only [l1, l2, k1, k2]
    · refine key2 (h * 81) (dt / 5017200000) _ ?_ ?_ d2.1 d2.2 (by ring)
      · linarith only [k1]
      · linarith only [k2]
    · apply key <;> norm_num only
    · apply key
      · calc (10⁻¹ ^ 20 : ℝ) ≤ 209050000 * 81 * (1 / 10 ^ 8) := by norm_num
          _ ≤ 209050000 * 81 * (1 / dt) := by have := d3.1; gcongr
          _ = _ := by ring
      · calc (209050000 * 81 / dt : ℝ) = 209050000 * 81 * (1 / dt) := by ring
          _ ≤ 209050000 * 81 * (1 / 10 ^ 6) := by have := d3.2; gcongr
          _ ≤ _ := by norm_num
    · apply key <;> norm_num only
    · apply key
      · calc (10⁻¹ ^ 20 : ℝ) ≤ 5017200000 * 81 * (1 / 10 ^ 8) := by norm_num
          _ ≤ 5017200000 * 81 * (1 / dt) := by have := d3.1; gcongr
          _ = _ := by ring
      · calc (5017200000 * 81 / dt : ℝ) = 5017200000 * 81 * (1 / dt) := by ring
          _ ≤ 5017200000 * 81 * (1 / 10 ^ 6) := by have := d3.2; gcongr
          _ ≤ _ := by norm_num
    · apply key <;> norm_num only <;> linarith only [l1, l2, k1, k2]
  have hmem0 : 0 ≤ p.memory := by
    have hC := hpos.C; have hD := hpos.D; have hl := hpos.l; have he := hpos.e; have hh := hpos.h; have hdt := hpos.dt
    unfold TLPar.memory; positivity
  have hκ : 48 * (2⁻¹ : ℝ) ^ 53 * p.memory ≤ 1 := by
    calc 48 * (2⁻¹ : ℝ) ^ 53 * p.memory ≤ 48 * (2⁻¹ : ℝ) ^ 53 * 4030 := by gcongr
      _ ≤ _ := by norm_num
  have hF : ∀ j < n i, |F i j| ≤ p.l * 81 := fun j hj => (hd.size i hil j hj).trans (by rw [el]; linarith only [l1])
  obtain ⟨⟨Y1, r1, b1⟩, ⟨Y2, r2, b2⟩, ⟨Y3, r3, b3⟩⟩ := C109_two_layer (p := p) U0.dimensionalD (double_accurate (10 ^ 20))
    (by positivity) (by norm_num) hm hp hrun (U0.axis_s hj hy hmo) hpos hres rfl hin (by norm_num) hκ hsel hi (hd.unit i row hi)
    hpar (hd.some_value i hil) (forcing (hd.values i row hi)) hF (hex i hil)
  refine ⟨⟨Y1, r1, fun j hj => (b1 j hj).trans ?_⟩, ⟨Y2, r2, fun j hj => (b2 j hj).trans ?_⟩,
    ⟨Y3, r3, fun j hj => (b3 j hj).trans ?_⟩⟩
  · calc _ ≤ 48 * (2⁻¹ : ℝ) ^ 53 * 81 * 1610 := by gcongr
      _ ≤ _ := by norm_num
  · calc _ ≤ 48 * (2⁻¹ : ℝ) ^ 53 * 81 * 4030 := by gcongr
      _ ≤ _ := by norm_num
  · rw [eC, eD, et]
    calc _ ≤ 2⁻¹ ^ 53 * (32 + 96 * 4030) * (81 * (209050000 + 5017200000) / 2629800 : ℝ) := by gcongr
      _ ≤ _ := by norm_num

/-! ### Impulse response -/

/-- one twelfth, rounded, is a double -/
theorem double_twelfth : double.fl (double.fl (1 / 12)) = double.fl (1 / 12) := by
  have hb := double_close' (x := 1 / 12) (by norm_num) (by norm_num)
  have h12 : Int.log 2 |(1 / 12 : ℝ)| = -4 := by
    rw [abs_of_pos (by norm_num)]
    refine le_antisymm ?_ ?_
    · have := (Int.lt_zpow_iff_log_lt (b := 2) (x := -3) (r := (1 / 12 : ℝ)) (by norm_num) (by norm_num)).mp (by norm_num)
      omega
    · exact (Int.zpow_le_iff_le_log (b := 2) (x := -4) (r := (1 / 12 : ℝ)) (by norm_num) (by norm_num)).mp (by norm_num)
  have hf : Int.log 2 |double.fl (1 / 12)| = -4 := by
    have hp : 0 < double.fl (1 / 12) := lt_of_lt_of_le (by norm_num) hb.1
    rw [abs_of_pos hp]
    refine le_antisymm ?_ ?_
    · have := (Int.lt_zpow_iff_log_lt (b := 2) (x := -3) (r := double.fl (1 / 12)) (by norm_num) hp).mp
        (lt_of_le_of_lt hb.2 (by norm_num))
      omega
    · exact (Int.zpow_le_iff_le_log (b := 2) (x := -4) (r := double.fl (1 / 12)) (by norm_num) hp).mp
        (le_trans (by norm_num) hb.1)
  have e : ulp64 (double.fl (1 / 12)) = ulp64 (1 / 12) := by unfold ulp64; rw [h12, hf]
  have hpos : ulp64 (1 / 12) ≠ 0 := by unfold ulp64; positivity
  show (roundEven (double.fl (1 / 12) / ulp64 (double.fl (1 / 12))) : ℝ) * ulp64 (double.fl (1 / 12)) = _
  rw [e]
  show (roundEven ((roundEven ((1 / 12 : ℝ) / ulp64 (1 / 12)) : ℝ) * ulp64 (1 / 12) / ulp64 (1 / 12)) : ℝ) * ulp64 (1 / 12) = _
  rw [mul_div_cancel_right₀ _ hpos, roundEven_intCast]
  rfl

/-- the step of an axis in years -/
theorem U0.axis_yr {times : List Int} {jan1 : Int → Int} (hj : Cal.IsJan1 jan1) {dt : ℝ}
    (hy : Cal.YearlyAxis jan1 times → dt = 1) (hmo : ¬ Cal.YearlyAxis jan1 times → dt = double.fl (1 / 12)) :
    ∀ q, AxisStep U0.regD times q → IsFNum U0.regD q U0.regD.yr dt := by
  have hone : double.fl ((1 : ℕ) : ℝ) = ((1 : ℕ) : ℝ) := double_int (by norm_num)
  rintro q ⟨j, hj', ⟨h1, h2⟩ | ⟨h1, -, h2⟩⟩
  · rw [IsJan1.unique hj', ← IsJan1.unique hj] at h1
    rw [hy h1, h2]
    have : (Arith.ofNat 1 : FR double) = FR.fin 1 := by rw [FR.ofNat_eq, hone, Nat.cast_one]
    rw [this]
    exact self _ _
  · rw [IsJan1.unique hj', ← IsJan1.unique hj] at h1
    rw [hmo h1, h2]
    have hne' : U0.regD.mon ≠ U0.regD.yr := by
      intro h
      have := congrFun h U0.month
      simp [Registry.mon, Registry.yr, U0.regD, u1, Pi.single_apply] at this
    rw [IsFNum, toUnit_ok (UnitOk.time (q := ⟨(Arith.ofNat 1 : FR double), U0.regD.mon⟩) U0.dimensionalD (Or.inr rfl)).2]
    simp only [Qty.magIn, if_neg hne']
    congr 2
    show (FR.fin (double.fl (1 : ℕ)) : FR double) * FR.fin (double.fl (scaleOf U0.scale (u1 U0.month) / scaleOf U0.scale (u1 U0.year))) = _
    rw [scaleOf_u1, scaleOf_u1, hone]
    have e1 : (U0.scale U0.month / U0.scale U0.year : ℝ) = 1 / 12 := by norm_num [U0.scale]
    rw [e1, FR.fin_mul, Nat.cast_one, one_mul, double_twelfth]

/-- `ImpulseResponseModel()` with another time step -/
noncomputable def IRPar.defaultDt (dt : ℝ) : IRPar := { IRPar.defaultD with dt := dt }

/-- **C109** (`ImpulseResponseModel()` in double precision).  Whatever happened to the object before, as long as its
parameters other than `delta_t` are the default ones: on a yearly or monthly axis, `run_scenarios` succeeds for any number
of series of any length with drivers within ±100 W/m² that differ in their metadata, and at the times of the drivers the
returned temperatures are within 10⁻⁹ K, and the heat uptake within 10⁻⁸ W/m², of the exact response with a step of one
year, or month. -/
theorem C109_default_impulse_response {m : IRM U0 (FR double)} (hm : IRM.Reachable U0.regD m) {dt₀ : ℝ}
    (hp : m.FPhys U0.regD (IRPar.defaultDt dt₀)) (hpl : m.PlainUnits U0.regD) {dv : String} {scen : ScmRun (FR double)}
    (hw : scen.WellFormed) {sel : List (Row (FR double))} (hsel : Selection dv scen.rows sel) (hne : sel ≠ [])
    {jan1 : Int → Int} (hj : Cal.IsJan1 jan1) (hax : Cal.YearlyAxis jan1 scen.times ∨ Cal.MonthlyAxis scen.times)
    (hdis : ∀ (i j : ℕ) (row row' : Row (FR double)), i ≠ j → sel[i]? = some row → sel[j]? = some row' →
      Distinguishable U0.regD m.pub.params row row')
    {n : ℕ → ℕ} {F : ℕ → ℕ → ℝ} (hd : Drivers sel n F) {dt : ℝ}
    (hy : Cal.YearlyAxis jan1 scen.times → dt = 1) (hmo : ¬ Cal.YearlyAxis jan1 scen.times → dt = double.fl (1 / 12))
    {T1 T2 U : ℕ → ℕ → ℝ} (hex : ∀ i < sel.length, IREq (IRPar.defaultDt dt) 1 (n i) (F i) (T1 i) (T2 i) (U i)) :
    ∃ m' out, runScenarios (IRM.variant U0.regD) U0.regD dv scen m = (m', .ok out) ∧
      ∀ (i : ℕ) (row : Row (FR double)), sel[i]? = some row →
      ReturnedNear U0.regD "two_timescale_impulse_response" m.pub.params scen out i row (5 * i + 1)
        "Surface Temperature|Box 1" "delta_degC" (n i) (T1 i) (1 / 10 ^ 9) ∧
      ReturnedNear U0.regD "two_timescale_impulse_response" m.pub.params scen out i row (5 * i + 2)
        "Surface Temperature|Box 2" "delta_degC" (n i) (T2 i) (1 / 10 ^ 9) ∧
      ReturnedNear U0.regD "two_timescale_impulse_response" m.pub.params scen out i row (5 * i + 3)
        "Surface Temperature" "delta_degC" (n i) (fun j => T1 i j + T2 i j) (1 / 10 ^ 9) ∧
      ReturnedNear U0.regD "two_timescale_impulse_response" m.pub.params scen out i row (5 * i + 4)
        "Heat Uptake" "W/m^2" (n i) (U i) (1 / 10 ^ 8) := by
  have hpar : U0.regD.parse "W/m^2" = some U0.regD.wm2 := rfl
  have hlen : ∀ (i : ℕ) (row : Row (FR double)), sel[i]? = some row → i < sel.length := fun i row h =>
    (List.getElem?_eq_some_iff.mp h).1
  have hone : double.fl 1 = 1 := by have := double_int (n := 1) (by norm_num); rwa [Nat.cast_one] at this
  obtain ⟨⟨a1, a2⟩, ⟨b1, b2⟩, ⟨c1, c2⟩⟩ := IRPar.defaultD_bounds
  norm_num only at a1 a2 b1 b2 c1 c2
  have hdt : 82 / 1000 ≤ dt ∧ dt ≤ 1 := by
    by_cases h : Cal.YearlyAxis jan1 scen.times
    · rw [hy h]; norm_num
    · rw [hmo h]
      have e : IRPar.defaultD.dt = double.fl (1 / 12) := rfl
      rw [e] at c1 c2
      exact ⟨le_trans (by norm_num) c1, c2.trans (by norm_num)⟩
  obtain ⟨t1, t2⟩ := hdt
  set p := IRPar.defaultDt dt with hpdef
  have ed1 : p.d1 = 9 := rfl
  have ed2 : p.d2 = 400 := rfl
  have eq1 : p.q1 = IRPar.defaultD.q1 := rfl
  have eq2 : p.q2 = IRPar.defaultD.q2 := rfl
  have et : p.dt = dt := rfl
  have hdt0 : 0 < p.dt := by rw [et]; linarith only [t1]
  have hok : p.Ok := ⟨IRPar.defaultD_ok.q1, IRPar.defaultD_ok.q2, IRPar.defaultD_ok.d1, IRPar.defaultD_ok.d2, IRPar.defaultD_ok.e⟩
  have hin : p.InRange 100 (2⁻¹ ^ 1022) (10 ^ 20) := by
    have hμ := small_normal
    have key : ∀ x : ℝ, 10⁻¹ ^ 20 ≤ x → x ≤ 10 ^ 18 → (2⁻¹ : ℝ) ^ 1022 ≤ x ∧ 64 * x ≤ 10 ^ 20 :=
      fun x a b => ⟨hμ.trans a, by linarith only [b]⟩
    unfold IRPar.InRange
    rw [ed1, ed2, eq1, eq2, et]
    generalize IRPar.defaultD.q1 = q1 at a1 a2
    generalize IRPar.defaultD.q2 = q2 at b1 b2
    refine ⟨hμ.trans (by norm_num), by norm_num, ?_⟩
    simp only [List.forall_mem_cons, List.not_mem_nil, IsEmpty.forall_iff, forall_const, and_true]
    refine ⟨?_, ?_, ?_, ?_, ?_, ?_⟩ <;> apply key <;> norm_num only <;> linarith only [a1, a2, b1, b2, t1, t2]
  have hci : p.ConvInRange (2⁻¹ ^ 1022) (10 ^ 20) := IRPar.defaultD_conv
  have x1 : p.d1 / p.dt ≤ 110 := by rw [ed1, et, div_le_iff₀ (by rwa [et] at hdt0)]; linarith only [t1]
  have x2 : p.d2 / p.dt ≤ 4900 := by rw [ed2, et, div_le_iff₀ (by rwa [et] at hdt0)]; linarith only [t1]
  have y1 : 0 ≤ p.d1 / p.dt := by rw [ed1]; positivity
  have y2 : 0 ≤ p.d2 / p.dt := by rw [ed2]; positivity
  have hκ : 32 * (2⁻¹ : ℝ) ^ 53 * (1 + p.d2 / p.dt) ≤ 1 := by
    calc _ ≤ 32 * (2⁻¹ : ℝ) ^ 53 * (1 + 4900) := by gcongr
      _ ≤ _ := by norm_num
  have hsuc : ∃ m' out, runScenarios (IRM.variant U0.regD) U0.regD dv scen m = (m', .ok out) := by
    obtain ⟨q, hq⟩ : ∃ q, AxisStep U0.regD scen.times q := by
      by_cases h : Cal.YearlyAxis jan1 scen.times
      · exact ⟨_, jan1, hj, Or.inl ⟨h, rfl⟩⟩
      · exact ⟨_, jan1, hj, Or.inr ⟨h, hax.resolve_left h, rfl⟩⟩
    have hset := IRM.setDeltaT_good (UnitOk.time U0.dimensionalD (axis_unit hq)).2 m
    have hreach := ir_step hm hset
    refine (C47_impulse_response_succeeds_iff U0.dimensionalD hm hw hsel).mpr ⟨hne, hdis, q, _, hq, hset, fun row hrow => ?_⟩
    obtain ⟨i, hi⟩ := List.mem_iff_getElem?.mp hrow
    have hil := hlen i row hi
    have hu := hd.unit i row hi
    refine ⟨?_, ?_, _, _, hu, hpar, ?_⟩
    · have hv := hd.values i row hi
      have hn := hd.some_value i hil
      have hmem : (FR.fin (F i 0) : FR double) ∈ present row.vals := by
        rw [hv, fseries, List.mem_map]
        exact ⟨0, List.mem_range.mpr (by omega), rfl⟩
      exact ⟨_, (List.mem_filter.mp hmem).1, rfl⟩
    · have hnm := hd.name i row hi
      rw [hu]
      simp [hnm]
    · obtain ⟨_, _, _, _, ⟨m₂, hs, -⟩, -⟩ := C67_impulse_response_uptake (p := p) (double_accurate (10 ^ 20)) (by positivity)
        (by norm_num) (by positivity) hone hreach
        ⟨hp.q1, hp.q2, hp.d1, hp.d2, hp.efficacy, U0.axis_yr hj hy hmo q hq⟩
        ⟨hpl.q1, hpl.q2, hpl.d1, hpl.d2, hpl.efficacy⟩ hok hdt0 hin hci (by norm_num) hκ (hd.some_value i hil)
        (forcing (hd.values i row hi)) (hd.size i hil) (hex i hil)
      exact ⟨m₂, hs⟩
  obtain ⟨m', out, hrun⟩ := hsuc
  refine ⟨m', out, hrun, fun i row hi => ?_⟩
  have hil := hlen i row hi
  obtain ⟨⟨Y1, r1, e1⟩, ⟨Y2, r2, e2⟩, ⟨Y3, r3, e3⟩⟩ := C109_impulse_response (p := p) U0.dimensionalD
    (double_accurate (10 ^ 20)) (by positivity) (by norm_num) hm hp hrun (U0.axis_yr hj hy hmo) hok hdt0 hin (by norm_num) hκ
    hsel hi (hd.unit i row hi) hpar (hd.some_value i hil) (forcing (hd.values i row hi)) (hd.size i hil)
    (hex i hil).box1 (hex i hil).box2
  obtain ⟨Y4, r4, e4⟩ := C109_impulse_response_uptake (p := p) U0.dimensionalD
    (double_accurate (10 ^ 20)) (by positivity) (by norm_num) (by positivity) hone hm hp hpl hrun (U0.axis_yr hj hy hmo) hok hdt0 hin hci
    (by norm_num) hκ hsel hi (hd.unit i row hi) hpar (hd.some_value i hil) (forcing (hd.values i row hi)) (hd.size i hil)
    (hex i hil)
  have k1 : 32 * (2⁻¹ : ℝ) ^ 53 * (p.q1 * 100) * (1 + p.d1 / p.dt) ≤ 1 / 10 ^ 10 := by
    rw [eq1]
    calc _ ≤ 32 * (2⁻¹ : ℝ) ^ 53 * (301 / 1000 * 100) * (1 + 110) := by gcongr
      _ ≤ _ := by norm_num
  have k2 : 32 * (2⁻¹ : ℝ) ^ 53 * (p.q2 * 100) * (1 + p.d2 / p.dt) ≤ 8 / 10 ^ 10 := by
    rw [eq2]
    calc _ ≤ 32 * (2⁻¹ : ℝ) ^ 53 * (401 / 1000 * 100) * (1 + 4900) := by gcongr
      _ ≤ _ := by norm_num
  have k3 : 2 * (2⁻¹ : ℝ) ^ 53 * ((p.q1 + p.q2) * 100) ≤ 1 / 10 ^ 12 := by
    rw [eq1, eq2]
    calc _ ≤ 2 * (2⁻¹ : ℝ) ^ 53 * ((301 / 1000 + 401 / 1000) * 100) := by gcongr
      _ ≤ _ := by norm_num
  have k4 : (2⁻¹ : ℝ) ^ 53 * 100 * (59 + 32 * (p.d2 / p.dt)) ≤ 1 / 10 ^ 8 := by
    calc _ ≤ (2⁻¹ : ℝ) ^ 53 * 100 * (59 + 32 * 4900) := by gcongr
      _ ≤ _ := by norm_num
  refine ⟨⟨Y1, r1, fun j hj => (e1 j hj).trans (k1.trans (by norm_num))⟩,
    ⟨Y2, r2, fun j hj => (e2 j hj).trans (k2.trans (by norm_num))⟩,
    ⟨Y3, r3, fun j hj => (e3 j hj).trans ((add_le_add (add_le_add k1 k2) k3).trans (by norm_num))⟩,
    ⟨Y4, r4, fun j hj => (e4 j hj).trans k4⟩⟩

/-! ### A concrete case: two scenarios on a yearly axis, one of them without a value for the first year -/

namespace ExD
open Cal
/-- metadata -/
def info (scenario : String) : Meta (FR double) :=
  [("model", .str "idealised"), ("scenario", .str scenario), ("variable", .str "Effective Radiative Forcing"),
    ("region", .str "World"), ("unit", .str "W/m^2")]
/-- first value missing -/
noncomputable def rowA : Row (FR double) := ⟨info "a", [Arith.nan, FR.fin 3, FR.fin (-7)]⟩
/-- all values present -/
noncomputable def rowB : Row (FR double) := ⟨info "b", [FR.fin 100, FR.fin 2, FR.fin 1]⟩
/-- the input -/
noncomputable def scen : ScmRun (FR double) := ⟨Ex.years, [rowA, rowB]⟩
/-- number of values -/
def n : ℕ → ℕ := fun i => if i = 0 then 2 else 3
/-- the values -/
def F : ℕ → ℕ → ℝ := fun i j => if i = 0 then (if j = 0 then 3 else -7) else (if j = 0 then 100 else if j = 1 then 2 else 1)

theorem wellFormed : scen.WellFormed := by
  refine ⟨?_, ?_, ?_⟩
  · intro r hr r' hr'
    simp only [scen, List.mem_cons, List.not_mem_nil, or_false] at hr hr'
    rcases hr with rfl | rfl <;> rcases hr' with rfl | rfl <;> rfl
  · intro r hr
    simp only [scen, List.mem_cons, List.not_mem_nil, or_false] at hr
    rcases hr with rfl | rfl <;> simp [rowA, rowB, info]
  · intro r hr
    simp only [scen, List.mem_cons, List.not_mem_nil, or_false] at hr
    rcases hr with rfl | rfl <;> rfl

theorem selection : Selection defaultDriverVar scen.rows [rowA, rowB] := by
  rw [selection_iff]
  have hs : ∀ s (vals : List (FR double)), Selected defaultDriverVar ⟨info s, vals⟩ := fun s vals =>
    ⟨⟨_, rfl, (C49_plain (by decide) _).mpr rfl⟩, rfl⟩
  have hA : selects defaultDriverVar rowA = true := (selects_iff _ _).mpr (hs _ _)
  have hB : selects defaultDriverVar rowB = true := (selects_iff _ _).mpr (hs _ _)
  simp [scen, hA, hB]

theorem distinguishable (ps : List (String × Qty U0 (FR double))) :
    ∀ (i j : ℕ) (row row' : Row (FR double)), i ≠ j → [rowA, rowB][i]? = some row → [rowA, rowB][j]? = some row' →
      Distinguishable U0.regD ps row row' := by
  have key : Distinguishable U0.regD ps rowA rowB ∧ Distinguishable U0.regD ps rowB rowA := by
    refine ⟨⟨"scenario", by decide, fun p _ => (Variant.Laws.paramColumn_ne U0.regD p (by decide)).symm, ?_⟩,
      ⟨"scenario", by decide, fun p _ => (Variant.Laws.paramColumn_ne U0.regD p (by decide)).symm, ?_⟩⟩ <;>
    simp [rowA, rowB, info, Meta.get]
  intro i j r r' hij hi hj
  have h1 : i < 2 := (List.getElem?_eq_some_iff.mp hi).1
  have h2 : j < 2 := (List.getElem?_eq_some_iff.mp hj).1
  interval_cases i <;> interval_cases j
  · exact absurd rfl hij
  · simp at hi hj; subst hi; subst hj; exact key.1
  · simp at hi hj; subst hi; subst hj; exact key.2
  · exact absurd rfl hij

theorem drivers : Drivers [rowA, rowB] n F := by
  have cases2 : ∀ {P : ℕ → Row (FR double) → Prop}, P 0 rowA → P 1 rowB →
      ∀ (i : ℕ) (row : Row (FR double)), [rowA, rowB][i]? = some row → P i row := by
    intro P h0 h1 i row hi
    have : i < 2 := (List.getElem?_eq_some_iff.mp hi).1
    interval_cases i
    · simp at hi; subst hi; exact h0
    · simp at hi; subst hi; exact h1
  refine ⟨cases2 rfl rfl, cases2 ?_ ?_, ?_, cases2 ?_ ?_, ?_⟩
  · simp [rowA, info, Meta.get]
  · simp [rowB, info, Meta.get]
  · intro i hi
    simp only [n]; split <;> norm_num
  · simp [present, rowA, fseries, n, F, List.range_succ]
  · simp [present, rowB, fseries, n, F, List.range_succ]
  · intro i hi j hj
    simp only [F]
    split <;> split <;> (try split) <;> norm_num [abs_of_pos]
end ExD

/-- All hypotheses of the two-layer theorem hold in it, and so do its conclusions. -/
example : ∃ m m' out, TLM.init U0.regD (TLM.defaultArgs U0.regD) = .ok m ∧
    runScenarios (TLM.variant U0.regD) U0.regD defaultDriverVar ExD.scen m = (m', .ok out) ∧
    ReturnedNear U0.regD "two_layer" m.pub.params ExD.scen out 1 ExD.rowB 5 "Surface Temperature|Upper" "delta_degC" 3
      (TLPar.T (TLPar.defaultDt 31557600) (ExD.F 1)) (1 / 10 ^ 8) := by
  obtain ⟨m, h1, h2⟩ := U0.regD_default
  have hpos : (TLPar.defaultDt 31557600).Pos := TLPar.defaultD_pos
  obtain ⟨m', out, h3, h4⟩ := C109_default (dt₀ := 31557600) ⟨_, _, [], h1, rfl⟩ h2 ExD.wellFormed ExD.selection (by simp)
    isJan1_daysBeforeYear (Or.inl Ex.yearly) (ExD.distinguishable _) ExD.drivers (fun _ => rfl)
    (fun h => absurd Ex.yearly h) (fun i _ => TLPar.sol_eq hpos.ok (ExD.n i) (ExD.F i))
  exact ⟨m, m', out, h1, h3, (h4 1 _ rfl).1⟩

/-- And of the impulse response theorem. -/
example : ∃ m m' out, IRM.init U0.regD (IRM.defaultArgs U0.regD) = .ok m ∧
    runScenarios (IRM.variant U0.regD) U0.regD defaultDriverVar ExD.scen m = (m', .ok out) ∧
    ReturnedNear U0.regD "two_timescale_impulse_response" m.pub.params ExD.scen out 1 ExD.rowB 6
      "Surface Temperature|Box 1" "delta_degC" 3 (boxSol (IRPar.defaultDt 1).q1 9 1 (ExD.F 1)) (1 / 10 ^ 9) := by
  obtain ⟨m, h1, h2, h3⟩ := U0.regD_default_ir
  obtain ⟨m', out, h4, h5⟩ := C109_default_impulse_response (dt₀ := IRPar.defaultD.dt) (dt := 1) ⟨_, _, [], h1, rfl⟩ h2 h3
    ExD.wellFormed ExD.selection (by simp)
    isJan1_daysBeforeYear (Or.inl Ex.yearly) (ExD.distinguishable _) ExD.drivers (fun _ => rfl)
    (fun h => absurd Ex.yearly h) (fun i _ => IRPar.sol_eq (IRPar.defaultDt 1) 1 (ExD.n i) (ExD.F i))
  exact ⟨m, m', out, h1, h4, (h5 1 _ rfl).1⟩

end TwoLayer
