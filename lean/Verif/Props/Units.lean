import Verif.Proofs.Congr
import Verif.Props.Convert

/-!
# C43–C46: units of parameters and drivers

`TLM.Phys R m p` says that the object's public parameters, converted to the SI, are the numbers `p`; two objects with
the same `p` have physically equal parameters, in whatever units they were given.  `IsForcing R d n F`: the driver
series converted to W/m² is `F 0, …, F (n-1)`.
-/

set_option linter.unusedSimpArgs false
set_option linter.unusedSectionVars false

namespace TwoLayer
variable {N : Type} [Fintype N] [DecidableEq N] {R : Registry N XR}

section
variable (L : R.Lawful)
include L

theorem TLM.Phys.eng_eq {m m' : TLM N XR} {p : TLPar} (hc : m.Coherent R) (hc' : m'.Coherent R) (hp : m.Phys R p)
    (hp' : m'.Phys R p) : m.eng = m'.eng := by
  have e1 : m.core.deltaTMag = m'.core.deltaTMag := by rw [hc.core.dtMag, hc'.core.dtMag, hp.dt.magIn, hp'.dt.magIn]
  have e2 : m.lambda0Mag = m'.lambda0Mag := by rw [hc.lambda0Mag, hc'.lambda0Mag, hp.lambda0.magIn, hp'.lambda0.magIn]
  have e3 : m.aMag = m'.aMag := by rw [hc.aMag, hc'.aMag, hp.a.magIn, hp'.a.magIn]
  have e4 : m.efficacyMag = m'.efficacyMag := by
    rw [hc.efficacyMag, hc'.efficacyMag, hp.efficacy.magIn, hp'.efficacy.magIn]
  have e5 : m.etaMag = m'.etaMag := by rw [hc.etaMag, hc'.etaMag, hp.eta.magIn, hp'.eta.magIn]
  have e6 : m.hcuMag = m'.hcuMag := by rw [TLM.Phys.hcu L hc hp, TLM.Phys.hcu L hc' hp']
  have e7 : m.hclMag = m'.hclMag := by rw [TLM.Phys.hcl L hc hp, TLM.Phys.hcl L hc' hp']
  unfold TLM.eng
  rw [e1, e2, e3, e4, e5, e6, e7]

/-! ## C43 -/

/-- Two two-layer objects with physically equal parameters, driven by physically equal drivers: same outcome and the
same three series. No restriction on the parameter values. -/
theorem C43_two_layer {m m' : TLM N XR} (hm : TLM.Reachable R m) (hm' : TLM.Reachable R m') {p : TLPar}
    (hp : m.Phys R p) (hp' : m'.Phys R p) {d d' : DArg N XR} {n : ℕ} (hn : n ≠ 0) {F : ℕ → ℝ}
    (hd : IsForcing R d n F) (hd' : IsForcing R d' n F) :
    (TLM.simulate R d m).2 = .ok () ∧ (TLM.simulate R d' m').2 = .ok () ∧
      (TLM.simulate R d m).1.outputs = (TLM.simulate R d' m').1.outputs := by
  obtain ⟨vals, u, -, -, hg, hF⟩ := hd.good L
  obtain ⟨vals', u', -, -, hg', hF'⟩ := hd'.good L
  have he := TLM.Phys.eng_eq L (TLM.Reachable.coherent R L.toDimensional hm) (TLM.Reachable.coherent R L.toDimensional hm')
    hp hp'
  obtain ⟨h1, h2⟩ := TLM.simulate_congr R he (hg hn) (hg' hn) (hF.trans hF'.symm)
  obtain ⟨m1, hs⟩ := TLM.simulate_succeeds R m (hg hn)
  have h0 : (TLM.simulate R d m).2 = .ok () := by rw [hs]
  exact ⟨h0, h1 ▸ h0, h2⟩

/-! ## C44 -/

/-- Box temperatures, and hence surface temperatures, do not depend on the units of the parameters or drivers. -/
theorem C44_temperatures {m m' : IRM N XR} (hm : IRM.Reachable R m) (hm' : IRM.Reachable R m') {p : IRPar}
    (hp : m.Phys R p) (hp' : m'.Phys R p) {d d' : DArg N XR} {n : ℕ} {F : ℕ → ℝ} (hd : IsForcing R d n F)
    (hd' : IsForcing R d' n F) {T1 T2 U T1' T2' U' : ℕ → ℝ} (h : IRM.Produces R m d n T1 T2 U)
    (h' : IRM.Produces R m' d' n T1' T2' U') : ∀ i < n, T1 i = T1' i ∧ T2 i = T2' i := by
  intro i hi
  obtain ⟨a, b⟩ := (IRM.boxes_val L (IRM.Reachable.coherent R hm) hp hd h).1 i hi
  obtain ⟨a', b'⟩ := (IRM.boxes_val L (IRM.Reachable.coherent R hm') hp' hd' h').1 i hi
  exact ⟨a.trans a'.symm, b.trans b'.symm⟩

/-- Heat uptake does depend on the unit of `q1`: if one unit of `q1` is `κ` K/(W/m²) for one object and `κ'` for the
other, the feedback terms differ by the factor `κ/κ'`. -/
theorem C44_uptake_error {m m' : IRM N XR} (hm : IRM.Reachable R m) (hm' : IRM.Reachable R m') {p : IRPar}
    (hp : m.Phys R p) (hp' : m'.Phys R p) (hok : p.Boxes) {κ κ' : ℝ} (hκ : IsNum R ⟨.fin 1, m.q1.unit⟩ R.cwm2 κ)
    (hκ' : IsNum R ⟨.fin 1, m'.q1.unit⟩ R.cwm2 κ') {d d' : DArg N XR} {n : ℕ} {F : ℕ → ℝ} (hd : IsForcing R d n F)
    (hd' : IsForcing R d' n F) {T1 T2 U T1' T2' U' : ℕ → ℝ} (h : IRM.Produces R m d n T1 T2 U)
    (h' : IRM.Produces R m' d' n T1' T2' U') :
    ∀ i, i + 1 < n → U (i + 1) - U' (i + 1) = (κ' - κ) * (1 / (p.q1 + p.q2)) * (T1 i + T2 i) := by
  intro i hi
  obtain ⟨a1, a2, -⟩ := IRM.produces_val' L (IRM.Reachable.coherent R hm) hp hok hκ hd h i (by omega)
  obtain ⟨-, -, a3⟩ := IRM.produces_val' L (IRM.Reachable.coherent R hm) hp hok hκ hd h (i + 1) hi
  obtain ⟨-, -, a4⟩ := IRM.produces_val' L (IRM.Reachable.coherent R hm') hp' hok hκ' hd' h' (i + 1) hi
  rw [a1, a2, a3, a4, IRPar.U_succ, IRPar.U_succ, show p.l = 1 / (p.q1 + p.q2) from rfl]
  ring

/-- The part of C44 that holds for heat uptake: it does not depend on the units of `q2`, `d1`, `d2`, `efficacy`,
`delta_t` and the drivers, as long as `q1` is given in units of the same size.  What is missing is freedom in the unit
of `q1` (see `C44_counterexample`). -/
theorem C44_partial {m m' : IRM N XR} (hm : IRM.Reachable R m) (hm' : IRM.Reachable R m') {p : IRPar}
    (hp : m.Phys R p) (hp' : m'.Phys R p) (hok : p.Boxes) {κ : ℝ} (hκ : IsNum R ⟨.fin 1, m.q1.unit⟩ R.cwm2 κ)
    (hκ' : IsNum R ⟨.fin 1, m'.q1.unit⟩ R.cwm2 κ) {d d' : DArg N XR} {n : ℕ} {F : ℕ → ℝ} (hd : IsForcing R d n F)
    (hd' : IsForcing R d' n F) {T1 T2 U T1' T2' U' : ℕ → ℝ} (h : IRM.Produces R m d n T1 T2 U)
    (h' : IRM.Produces R m' d' n T1' T2' U') : ∀ i < n, T1 i = T1' i ∧ T2 i = T2' i ∧ U i = U' i := by
  intro i hi
  obtain ⟨a, b, c⟩ := IRM.produces_val' L (IRM.Reachable.coherent R hm) hp hok hκ hd h i hi
  obtain ⟨a', b', c'⟩ := IRM.produces_val' L (IRM.Reachable.coherent R hm') hp' hok hκ' hd' h' i hi
  exact ⟨a.trans a'.symm, b.trans b'.symm, c.trans c'.symm⟩

/-- Exactly when heat uptake is the same for two objects with the same physical parameters: if the units of `q1` have the
same size, or there is no warming before the last step. -/
theorem C44_iff {m m' : IRM N XR} (hm : IRM.Reachable R m) (hm' : IRM.Reachable R m') {p : IRPar}
    (hp : m.Phys R p) (hp' : m'.Phys R p) (hok : p.Boxes) {κ κ' : ℝ} (hκ : IsNum R ⟨.fin 1, m.q1.unit⟩ R.cwm2 κ)
    (hκ' : IsNum R ⟨.fin 1, m'.q1.unit⟩ R.cwm2 κ') {d d' : DArg N XR} {n : ℕ} {F : ℕ → ℝ} (hd : IsForcing R d n F)
    (hd' : IsForcing R d' n F) {T1 T2 U T1' T2' U' : ℕ → ℝ} (h : IRM.Produces R m d n T1 T2 U)
    (h' : IRM.Produces R m' d' n T1' T2' U') :
    (∀ i < n, U i = U' i) ↔ κ = κ' ∨ ∀ i, i + 1 < n → T1 i + T2 i = 0 := by
  have he := C44_uptake_error L hm hm' hp hp' hok hκ hκ' hd hd' h h'
  have hl : 1 / (p.q1 + p.q2) ≠ 0 := one_div_ne_zero (add_pos hok.q1 hok.q2).ne'
  constructor
  · intro hU
    by_cases hk : κ = κ'
    · exact .inl hk
    · refine .inr fun i hi => ?_
      have := he i hi
      rw [hU (i + 1) hi, sub_self] at this
      rcases mul_eq_zero.mp this.symm with h1 | h1
      · rcases mul_eq_zero.mp h1 with h2 | h2
        · exact absurd (sub_eq_zero.mp h2).symm hk
        · exact absurd h2 hl
      · exact h1
  · intro hor i hi
    cases i with
    | zero =>
      obtain ⟨-, -, c⟩ := IRM.produces_val' L (IRM.Reachable.coherent R hm) hp hok hκ hd h 0 hi
      obtain ⟨-, -, c'⟩ := IRM.produces_val' L (IRM.Reachable.coherent R hm') hp' hok hκ' hd' h' 0 hi
      rw [c, c']; rfl
    | succ i =>
      have := he i hi
      rcases hor with rfl | h0
      · rw [sub_self, zero_mul, zero_mul] at this; exact sub_eq_zero.mp this
      · rw [h0 i hi, mul_zero] at this; exact sub_eq_zero.mp this

/-! ## C45 -/

/-- A run of at least two steps succeeds exactly if `efficacy = 1`, or the units of `q2` times those of `efficacy`
spell `delta_degC / (W/m^2)`; otherwise it raises AssertionError. -/
theorem C45_iff {m : IRM N XR} (hm : IRM.Reachable R m) {p : IRPar} (hp : m.Phys R p) (hok : p.Boxes) {d : DArg N XR}
    {n : ℕ} (hn : 1 < n) {F : ℕ → ℝ} (hd : IsForcing R d n F) :
    ((IRM.simulate R d m).2 = .ok () ↔ p.e = 1 ∨ m.q2.unit + m.efficacy.unit = R.cwm2) ∧
    ((IRM.simulate R d m).2 = .ok () ∨
      (IRM.simulate R d m).2 = .error (.assertion "units should have come out as W/m^2")) := by
  have hc := IRM.Reachable.coherent R hm
  by_cases hu : IRM.UnitsOk R m p.e
  · obtain ⟨κ, -, hκ⟩ := IRM.kappa L hp.q1
    obtain ⟨m', h, -⟩ := IRM.produces_sol' L hc hp hok hκ (by omega) hd (Or.inl hu)
    rw [h]
    exact ⟨⟨fun _ => hu, fun _ => rfl⟩, Or.inl rfl⟩
  · obtain ⟨m', h⟩ := IRM.simulate_units' L hc hp hok hn hd hu
    rw [h]
    refine ⟨⟨fun h => ?_, fun h => absurd h hu⟩, Or.inr rfl⟩
    cases h

/-- The part of C45 that holds: `efficacy ≠ 1` is accepted for every choice of units of `q1`, `d1`, `d2`, `delta_t`
and the drivers, provided `q2` is in `delta_degC/(W/m^2)` and `efficacy` is `dimensionless`.  What is missing is
freedom in the units of `q2` and `efficacy` (see `C45_counterexample`). -/
theorem C45_partial {m : IRM N XR} (hm : IRM.Reachable R m) {p : IRPar} (hp : m.Phys R p) (hok : p.Boxes)
    (hu2 : m.q2.unit = R.cwm2) (hue : m.efficacy.unit = R.one) {d : DArg N XR} {n : ℕ} (hn : 1 < n) {F : ℕ → ℝ}
    (hd : IsForcing R d n F) : (IRM.simulate R d m).2 = .ok () :=
  (C45_iff L hm hp hok hn hd).1.mpr (Or.inr (by rw [hu2, hue]; simp [Registry.one]))

/-! ## C46 -/

/-- On one object, drivers that are physically equal give the same outcome (success or the same exception) and the
same series, whatever units they are in. -/
theorem C46_two_layer (m : TLM N XR) {d d' : DArg N XR} {n : ℕ} (hn : n ≠ 0) {F : ℕ → ℝ} (hd : IsForcing R d n F)
    (hd' : IsForcing R d' n F) : (TLM.simulate R d m).2 = (TLM.simulate R d' m).2 ∧
      (TLM.simulate R d m).1.outputs = (TLM.simulate R d' m).1.outputs := by
  obtain ⟨vals, u, -, -, hg, hF⟩ := hd.good L
  obtain ⟨vals', u', -, -, hg', hF'⟩ := hd'.good L
  exact TLM.simulate_congr R rfl (hg hn) (hg' hn) (hF.trans hF'.symm)

theorem C46_impulse_response (m : IRM N XR) {d d' : DArg N XR} {n : ℕ} (hn : n ≠ 0) {F : ℕ → ℝ}
    (hd : IsForcing R d n F) (hd' : IsForcing R d' n F) : (IRM.simulate R d m).2 = (IRM.simulate R d' m).2 ∧
      (IRM.simulate R d m).1.outputs = (IRM.simulate R d' m).1.outputs := by
  obtain ⟨vals, u, -, -, hg, hF⟩ := hd.good L
  obtain ⟨vals', u', -, -, hg', hF'⟩ := hd'.good L
  exact IRM.simulate_congr R rfl (hg hn) (hg' hn) (hF.trans hF'.symm)
end

/-- Drivers in a unit that cannot be converted to W/m² raise UnitError and leave the object unchanged. -/
theorem C46_incompatible {α : Type} [Arith α] {R : Registry N α} (vals : List α) {u : Units N}
    (hu : ¬ Convertible R ⟨Arith.ofNat 1, u⟩ R.wm2) :
    (∀ m : TLM N α, TLM.simulate R (.qty ⟨1, vals⟩ u) m = (m, .error (.unitError "erf"))) ∧
    (∀ m : IRM N α, IRM.simulate R (.qty ⟨1, vals⟩ u) m = (m, .error (.unitError "erf"))) := by
  have hu' : ¬ (u = R.wm2 ∨ R.compat u R.wm2 = true) := fun h => hu ⟨_, toUnit_ok h⟩
  constructor <;> intro m
  · simp [TLM.simulate, Py.bind_apply, TLM.setDrivers, Py.onCore, Core.setDrivers, Core.setErf, hu']
  · simp [IRM.simulate, Py.bind_apply, IRM.setDrivers, Py.onCore, Core.setDrivers, Core.setErf, hu']

/-! ## Concrete cases and counterexamples, in the reference registry -/

namespace U0
/-- `millidelta_degC / (W/m^2)` -/
noncomputable def milliU : Units U0 := u1 millidegC - reg.wm2
/-- `kelvin / (W/m^2)` -/
noncomputable def kelvinU : Units U0 := u1 kelvin - reg.wm2
/-- `kW/m^2` -/
def kwU : Units U0 := u1 kilowatt - (2 : ℚ) • u1 meter

theorem sc_u1 (n : U0) : lawful.sc (u1 n) = scale n := by
  show scaleOf scale (u1 n) = _
  exact scaleOf_u1 n

theorem dm_u1 (n : U0) : lawful.dm (u1 n) = dim n := by
  show dimOf dim (u1 n) = _
  exact dimOf_u1 _ n

theorem milli_num (x : ℝ) : IsNum reg ⟨.fin x, milliU⟩ reg.cwm2 (x / 1000) := by
  rw [lawful.isNum_iff]
  have hw := lawful.sc_ne reg.wm2
  constructor
  · simp only [Registry.Lawful.quant, milliU, Registry.cwm2, lawful.sc_sub, sc_u1]
    rw [show reg.ddegC = ddegC from rfl]
    congr 2
    simp only [scale]
    field_simp
  · simp only [milliU, Registry.cwm2, lawful.dm_sub, dm_u1]
    rfl

theorem kelvin_num (x : ℝ) : IsNum reg ⟨.fin x, kelvinU⟩ reg.cwm2 x := by
  rw [lawful.isNum_iff]
  have hw := lawful.sc_ne reg.wm2
  constructor
  · simp only [Registry.Lawful.quant, kelvinU, Registry.cwm2, lawful.sc_sub, sc_u1]
    rw [show reg.ddegC = ddegC from rfl]
    congr 2
    simp only [scale]
    field_simp
  · simp only [kelvinU, Registry.cwm2, lawful.dm_sub, dm_u1]
    rfl

theorem km_num (x : ℝ) : IsNum reg ⟨.fin x, u1 kilometer⟩ reg.m (x * 1000) := by
  rw [lawful.isNum_iff]
  constructor
  · simp only [Registry.Lawful.quant, Registry.m, sc_u1]
    rw [show reg.meter = meter from rfl]
    congr 2
    simp only [scale]; field_simp
  · simp only [Registry.m, dm_u1]; rfl

theorem kw_num (x : ℝ) : IsNum reg ⟨.fin x, kwU⟩ reg.wm2 (x * 1000) := by
  rw [lawful.isNum_iff]
  have hw := lawful.sc_ne ((2 : ℚ) • u1 meter)
  constructor
  · simp only [Registry.Lawful.quant, kwU, Registry.wm2, lawful.sc_sub, sc_u1]
    rw [show reg.watt = watt from rfl, show reg.meter = meter from rfl]
    congr 2
    simp only [scale]; field_simp
  · simp only [kwU, Registry.wm2, lawful.dm_sub, dm_u1]; rfl
end U0

/-- C43, C46: a two-layer object with depths in km, and drivers in kW/m², beside the same in the model's units -/
example : ∃ m m' : TLM U0 XR, TLM.Reachable U0.reg m ∧ TLM.Reachable U0.reg m' ∧ m.Phys U0.reg TLPar.default ∧
    m'.Phys U0.reg TLPar.default ∧ m.du.unit ≠ m'.du.unit ∧
    IsForcing U0.reg (.qty ⟨1, [.fin 1, .fin 2]⟩ U0.kwU) 2 (fun i => ((i : ℝ) + 1) * 1000) ∧
    IsForcing U0.reg (.qty ⟨1, [.fin 1000, .fin 2000]⟩ U0.reg.wm2) 2 (fun i => ((i : ℝ) + 1) * 1000) := by
  obtain ⟨m, h, hp⟩ := TLM.default_exists U0.lawful
  have hu : m.du.unit = U0.reg.m := by
    have hi : TLM.init U0.reg (TLM.defaultArgs U0.reg) = .ok _ := TLM.init_good U0.lawful.toDimensional (Or.inl rfl)
      (Or.inl rfl) (Or.inl rfl) (Or.inl rfl) (Or.inl rfl) (Or.inl rfl) (Or.inl rfl)
    rw [hi] at h; cases h; rfl
  obtain ⟨h1, h2⟩ := TLM.init_phys U0.lawful (p := TLPar.default)
    (du := ⟨.fin (TLPar.default.C / (1000 * 4181) / 1000), u1 U0.kilometer⟩) (dl := m.dl) (l := m.lambda0) (a := m.a)
    (ef := m.efficacy) (et := m.eta) (dt := m.core.deltaT)
    (by have := U0.km_num (TLPar.default.C / (1000 * 4181) / 1000)
        rwa [div_mul_cancel₀ _ (by norm_num : (1000 : ℝ) ≠ 0)] at this)
    hp.dl hp.lambda0 hp.a hp.efficacy hp.eta hp.dt
  refine ⟨m, _, ⟨_, m, [], h, rfl⟩, ⟨_, _, [], h1, rfl⟩, hp, h2, ?_, ?_, ?_⟩
  · rw [hu]
    intro h
    have := congrFun h U0.meter
    change (u1 U0.meter : Units U0) U0.meter = (u1 U0.kilometer : Units U0) U0.meter at this
    simp [u1] at this
  · refine ⟨_, _, rfl, rfl, fun i hi => ?_⟩
    simp only [List.length_cons, List.length_nil] at hi
    interval_cases i
    · simpa using U0.kw_num 1
    · have := U0.kw_num 2; norm_num at this ⊢; exact this
  · refine ⟨_, _, rfl, rfl, fun i hi => ?_⟩
    simp only [List.length_cons, List.length_nil] at hi
    interval_cases i
    · have := isNum_self (R := U0.reg) 1000 U0.reg.wm2; simpa using this
    · have := isNum_self (R := U0.reg) 2000 U0.reg.wm2; norm_num at this ⊢; exact this

/-- Two objects with default values, one unit of whose `q1` is 1 and 1/1000 K/(W/m²): both run, with different heat
uptake. -/
theorem IRM.q1_unit_matters {m m' : IRM U0 XR} (hr : IRM.Reachable U0.reg m) (hr' : IRM.Reachable U0.reg m')
    (hp : m.Phys U0.reg IRPar.default) (h2 : m'.Phys U0.reg IRPar.default)
    (hκ : IsNum U0.reg ⟨.fin 1, m.q1.unit⟩ U0.reg.cwm2 1) (hκ' : IsNum U0.reg ⟨.fin 1, m'.q1.unit⟩ U0.reg.cwm2 (1 / 1000))
    {d : DArg U0 XR} (hd : IsForcing U0.reg d 3 (fun _ => 1)) :
    ∃ (T1 T2 U T1' T2' U' : ℕ → ℝ), IRM.Produces U0.reg m d 3 T1 T2 U ∧ IRM.Produces U0.reg m' d 3 T1' T2' U' ∧
      U 2 ≠ U' 2 := by
  have P := IRM.produces_sol' U0.lawful (IRM.Reachable.coherent _ hr) hp IRPar.default_ok.boxes hκ (n := 3) (by norm_num) hd
    (Or.inl (Or.inl rfl))
  have P' := IRM.produces_sol' U0.lawful (IRM.Reachable.coherent _ hr') h2 IRPar.default_ok.boxes hκ' (n := 3) (by norm_num) hd
    (Or.inl (Or.inl rfl))
  refine ⟨_, _, _, _, _, _, P, P', fun heq => ?_⟩
  have := C44_uptake_error U0.lawful hr hr' hp h2 IRPar.default_ok.boxes hκ hκ' hd hd P P' 1 (by norm_num)
  rw [heq, sub_self] at this
  have pos : ∀ q d : ℝ, 0 < q → 0 < d → 0 < boxSol q d IRPar.default.dt (fun _ => 1) 1 := by
    intro q d hq hd
    have he : Real.exp (-(IRPar.default.dt / d)) < 1 := by
      rw [Real.exp_lt_one_iff]
      have : 0 < IRPar.default.dt / d := div_pos (by norm_num [IRPar.default]) hd
      linarith
    rw [boxSol_succ]
    simp only [boxSol]
    nlinarith
  have p1 := pos _ _ IRPar.default_ok.q1 IRPar.default_ok.d1
  have p2 := pos _ _ IRPar.default_ok.q2 IRPar.default_ok.d2pos
  have p3 : 0 < 1 / (IRPar.default.q1 + IRPar.default.q2) :=
    one_div_pos.mpr (add_pos IRPar.default_ok.q1 IRPar.default_ok.q2)
  have p4 : 0 < IRPar.default.T1 (fun _ => 1) 1 + IRPar.default.T2 (fun _ => 1) 1 := add_pos p1 p2
  have p5 := mul_pos p3 p4
  nlinarith

/-- C44 fails: the default object, and the same with `q1` given as 300 millikelvin/(W/m²) instead of 0.3 K/(W/m²).
Both accept the same drivers and run; their heat uptakes differ. -/
theorem C44_counterexample : ∃ (m m' : IRM U0 XR) (d : DArg U0 XR) (T1 T2 U T1' T2' U' : ℕ → ℝ),
    IRM.Reachable U0.reg m ∧ IRM.Reachable U0.reg m' ∧ m.Phys U0.reg IRPar.default ∧ m'.Phys U0.reg IRPar.default ∧
    IsForcing U0.reg d 3 (fun _ => 1) ∧
    IRM.Produces U0.reg m d 3 T1 T2 U ∧ IRM.Produces U0.reg m' d 3 T1' T2' U' ∧ U 2 ≠ U' 2 := by
  obtain ⟨m, h, hp, hu, -⟩ := IRM.default_exists U0.lawful
  have hq : IsNum U0.reg ⟨.fin 300, U0.milliU⟩ U0.reg.cwm2 IRPar.default.q1 := by
    have := U0.milli_num 300
    rwa [show (300 : ℝ) / 1000 = IRPar.default.q1 by norm_num [IRPar.default]] at this
  obtain ⟨h1, h2⟩ := IRM.init_phys U0.lawful (q1 := ⟨.fin 300, U0.milliU⟩) IRPar.default_ok.d2 hq hp.q2 hp.d1 hp.d2
    hp.efficacy hp.dt
  have hd := forcing_exists (R := U0.reg) 3 (fun _ => 1)
  have hκ : IsNum U0.reg ⟨.fin 1, m.q1.unit⟩ U0.reg.cwm2 1 := by rw [hu]; exact isNum_self _ _
  have hκ' : IsNum U0.reg ⟨.fin 1, U0.milliU⟩ U0.reg.cwm2 (1 / 1000) := U0.milli_num 1
  have hr : IRM.Reachable U0.reg m := ⟨_, _, [], h, rfl⟩
  have hr' : IRM.Reachable U0.reg (IRM.built U0.reg ⟨.fin 300, U0.milliU⟩ m.q2 m.d1 m.d2 m.efficacy m.core.deltaT) :=
    ⟨_, _, [], h1, rfl⟩
  obtain ⟨T1, T2, U, T1', T2', U', P, P', hne⟩ := IRM.q1_unit_matters hr hr' hp h2 hκ hκ' hd
  exact ⟨m, _, _, _, _, _, _, _, _, hr, hr', hp, h2, hd, P, P', hne⟩

/-- C45 fails: default parameters except efficacy 1.3, `q2` given in K/(W/m²), a unit of the same size as the model's
own.  The constructor accepts the object; every run of two or more steps raises AssertionError. -/
theorem C45_counterexample : ∃ m : IRM U0 XR, IRM.Reachable U0.reg m ∧
    m.Phys U0.reg { IRPar.default with e := 1.3 } ∧ IRPar.Ok { IRPar.default with e := 1.3 } ∧
    ∀ d n F, 1 < n → IsForcing U0.reg d n F →
      (IRM.simulate U0.reg d m).2 = .error (.assertion "units should have come out as W/m^2") := by
  obtain ⟨m, h, hp, hu, -⟩ := IRM.default_exists U0.lawful
  have hok : IRPar.Ok { IRPar.default with e := 1.3 } := by constructor <;> norm_num [IRPar.default]
  obtain ⟨h1, h2⟩ := IRM.init_phys U0.lawful (p := { IRPar.default with e := 1.3 }) (q1 := m.q1)
    (q2 := ⟨.fin IRPar.default.q2, U0.kelvinU⟩) (d1 := m.d1) (d2 := m.d2) (ef := ⟨.fin 1.3, U0.reg.one⟩)
    (dt := m.core.deltaT) hok.d2 hp.q1 (U0.kelvin_num _) hp.d1 hp.d2 (isNum_self _ _) hp.dt
  refine ⟨_, ⟨_, _, [], h1, rfl⟩, h2, hok, fun d n F hn hd => ?_⟩
  obtain ⟨hiff, hor⟩ := C45_iff U0.lawful ⟨_, _, [], h1, rfl⟩ h2 hok.boxes hn hd
  refine hor.resolve_left fun hsucc => ?_
  rcases hiff.mp hsucc with he | he
  · norm_num at he
  · have := congrFun he U0.kelvin
    change ((u1 U0.kelvin - (u1 U0.watt - (2 : ℚ) • u1 U0.meter)) + 0 : Units U0) U0.kelvin =
      (u1 U0.ddegC - (u1 U0.watt - (2 : ℚ) • u1 U0.meter) : Units U0) U0.kelvin at this
    simp [u1] at this

end TwoLayer
