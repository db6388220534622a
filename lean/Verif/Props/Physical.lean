import Verif.Spec.Physical
import Verif.Proofs.Scaling
import Verif.Props.TwoLayer
import Verif.Props.ImpulseResponse
import Verif.Props.Units

/-!
# C94: runs solve the equations between physical quantities

The models compute with bare numbers.  Read in the units in which parameters were given and results are reported, these
numbers solve the equations between physical quantities: every sum adds quantities of one dimension and no conversion
factor is missing.
-/

set_option linter.unusedSimpArgs false
set_option linter.unusedSectionVars false

namespace TwoLayer
variable {N : Type} [Fintype N] [DecidableEq N] {R : Registry N XR} (L : R.Lawful)
include L

private theorem num {q : Qty N XR} {u : Units N} {x : ℝ} (h : UnitOk R q.unit u) (hs : Size L q x) :
    IsNum R q u (x / L.sc u) := by
  obtain ⟨v, hv, rfl⟩ := hs
  have h1 := L.quant_self q v hv
  rw [h1]
  exact L.isNum_quant ((L.unitOk_iff _ _).mp h)

private theorem sc2 (n : N) : L.sc ((2 : ℚ) • u1 n) = L.scale n ^ 2 := by
  rw [L.sc_smul]; simp [Registry.Lawful.sc]

private theorem sc1 (n : N) : L.sc (u1 n) = L.scale n := by simp [Registry.Lawful.sc]

private theorem scW : L.sc R.wm2 = L.scale R.watt / L.scale R.meter ^ 2 := by
  rw [Registry.wm2, L.sc_sub, sc2, sc1]

private theorem forcing {d : DArg N XR} {n : ℕ} {F : ℕ → ℝ} (hF : SizeForcing L d n F)
    (hd : ∀ vals u, d = .qty ⟨1, vals⟩ u → UnitOk R u R.wm2) : IsForcing R d n fun i => F i / L.sc R.wm2 := by
  obtain ⟨vals, u, rfl, hn, hv⟩ := hF
  exact ⟨vals, u, rfl, hn, fun i hi => num L (hd _ _ rfl) (hv i hi)⟩

/-- Whatever the units in which the parameters and the forcing were given, and whatever the sizes of the named units:
reported temperatures (read as delta_degC) and heat uptake (read as W/m²) solve the two-layer equations between physical
quantities. -/
theorem C94_two_layer {m : TLM N XR} (hm : TLM.Reachable R m) {P : TLPar} (hP : m.Sizes L P) (hok : P.Ok)
    {d : DArg N XR} {n : ℕ} {F : ℕ → ℝ} (hF : SizeForcing L d n F) {T TD U : ℕ → ℝ}
    (h : TLM.Produces R m d n T TD U) :
    TLEq P n F (fun i => T i * L.scale R.ddegC) (fun i => TD i * L.scale R.ddegC)
      (fun i => U i * (L.scale R.watt / L.scale R.meter ^ 2)) := by
  have hc := TLM.Reachable.coherent R L.toDimensional hm
  rcases Nat.eq_zero_or_pos n with rfl | hn
  · exact ⟨fun h => absurd h (lt_irrefl _), fun i hi => absurd hi (by omega)⟩
  have hW := L.scale_pos R.watt
  have hM := L.scale_pos R.meter
  have hK := L.scale_pos R.ddegC
  have hS := L.scale_pos R.second
  have hkg := L.scale_pos R.kilogram
  have eJ := L.scale_joule
  have e1 : L.sc R.m = L.scale R.meter := sc1 L _
  have e2 : L.sc R.wm2c = L.scale R.watt / L.scale R.meter ^ 2 / L.scale R.ddegC := by
    rw [Registry.wm2c, L.sc_sub, scW, sc1]
  have e3 : L.sc R.wm2cc = L.scale R.watt / L.scale R.meter ^ 2 / L.scale R.ddegC ^ 2 := by
    rw [Registry.wm2cc, L.sc_sub, scW, sc2]
  have e4 : L.sc R.s = L.scale R.second := sc1 L _
  have e5 : L.sc R.one = 1 := L.sc_zero
  have hp : m.Phys R
      { C := P.C * L.scale R.meter ^ 2 * L.scale R.ddegC / (L.scale R.watt * L.scale R.second)
        D := P.D * L.scale R.meter ^ 2 * L.scale R.ddegC / (L.scale R.watt * L.scale R.second)
        l := P.l / L.sc R.wm2c, a := P.a / L.sc R.wm2cc, e := P.e / L.sc R.one, h := P.h / L.sc R.wm2c
        dt := P.dt / L.sc R.s } := by
    refine ⟨?_, ?_, num L hc.lambda0Unit hP.lambda0, num L hc.aUnit hP.a, num L hc.efficacyUnit hP.efficacy,
      num L hc.etaUnit hP.eta, num L hc.core.dtUnit hP.dt⟩
    · have := num L hc.duUnit hP.du
      convert this using 1
      rw [e1, eJ]; field_simp
    · have := num L hc.dlUnit hP.dl
      convert this using 1
      rw [e1, eJ]; field_simp
  have hC := hok.C; have hD := hok.D; have hdt := hok.dt
  have hf : IsForcing R d n fun i => F i / L.sc R.wm2 := by
    refine forcing L hF ?_
    rintro vals u rfl
    obtain ⟨m', hs, -⟩ := h
    obtain ⟨vals', u', v, hg, -⟩ := TLM.simulate_ok hs
    obtain ⟨h1, h2, -⟩ := hg
    cases h1
    exact h2
  have key := (C15_two_layer L hm hp ⟨by positivity, by positivity, by rw [e4]; positivity⟩ hn.ne' hf T TD U).mp h
  rw [e2, e3, e4, e5, scW] at key
  obtain ⟨k0, k⟩ := key
  refine ⟨fun h0 => ?_, fun i hi => ?_⟩
  · obtain ⟨a, b, c⟩ := k0 h0
    simp only [a, b, c, zero_mul, and_self]
  · obtain ⟨a, b, c⟩ := k i hi
    simp only at a b c ⊢
    have a' : P.C * ((T (i + 1) * L.scale R.ddegC - T i * L.scale R.ddegC) / P.dt) =
        F i - (P.l - P.a * (T i * L.scale R.ddegC)) * (T i * L.scale R.ddegC) -
          P.e * P.h * (T i * L.scale R.ddegC - TD i * L.scale R.ddegC) := by
      field_simp at a ⊢
      linear_combination a
    have b' : P.D * ((TD (i + 1) * L.scale R.ddegC - TD i * L.scale R.ddegC) / P.dt) =
          P.h * (T i * L.scale R.ddegC - TD i * L.scale R.ddegC) := by
      field_simp at b ⊢
      linear_combination b
    refine ⟨a', b', ?_⟩
    rw [c]
    field_simp

/-- The same for the impulse response model.  In the heat uptake the feedback is multiplied by the size of the unit in
which `q1` was given, relative to K/(W/m²). -/
theorem C94_impulse_response {m : IRM N XR} (hm : IRM.Reachable R m) {P : IRPar} (hP : m.Sizes L P) (hok : P.Boxes)
    {d : DArg N XR} {n : ℕ} {F : ℕ → ℝ} (hF : SizeForcing L d n F) {T1 T2 U : ℕ → ℝ}
    (h : IRM.Produces R m d n T1 T2 U) :
    IREq P (scaleOf L.scale m.q1.unit / (L.scale R.ddegC / (L.scale R.watt / L.scale R.meter ^ 2))) n F
      (fun i => T1 i * L.scale R.ddegC) (fun i => T2 i * L.scale R.ddegC)
      (fun i => U i * (L.scale R.watt / L.scale R.meter ^ 2)) := by
  have hc := IRM.Reachable.coherent R hm
  rcases Nat.eq_zero_or_pos n with rfl | hn
  · exact ⟨⟨fun h => absurd h (lt_irrefl _), fun i hi => absurd hi (by omega)⟩,
      ⟨fun h => absurd h (lt_irrefl _), fun i hi => absurd hi (by omega)⟩,
      ⟨fun h => absurd h (lt_irrefl _), fun i hi => absurd hi (by omega)⟩⟩
  have hW := L.scale_pos R.watt
  have hM := L.scale_pos R.meter
  have hK := L.scale_pos R.ddegC
  have hY := L.scale_pos R.year
  have e2 : L.sc R.cwm2 = L.scale R.ddegC / (L.scale R.watt / L.scale R.meter ^ 2) := by
    rw [Registry.cwm2, L.sc_sub, scW, sc1]
  have e4 : L.sc R.yr = L.scale R.year := sc1 L _
  have e5 : L.sc R.one = 1 := L.sc_zero
  set k := L.sc R.yr with hk
  set r := L.sc R.cwm2 with hr
  have hk0 : 0 < k := L.sc_pos _
  have hr0 : 0 < r := L.sc_pos _
  have hq1 := hok.q1; have hq2 := hok.q2; have hd1 := hok.d1; have hd2 := hok.d2; have he := hok.e
  have hp : m.Phys R { q1 := P.q1 / r, q2 := P.q2 / r, d1 := P.d1 / k, d2 := P.d2 / k, e := P.e, dt := P.dt / k } := by
    refine ⟨num L hc.q1Unit hP.q1, num L hc.q2Unit hP.q2, num L hc.d1Unit hP.d1, num L hc.d2Unit hP.d2, ?_,
      num L hc.core.dtUnit hP.dt⟩
    have := num L hc.efficacyUnit hP.efficacy
    rwa [e5, div_one] at this
  have hokp : IRPar.Boxes { q1 := P.q1 / r, q2 := P.q2 / r, d1 := P.d1 / k, d2 := P.d2 / k, e := P.e, dt := P.dt / k } := by
    refine ⟨by positivity, by positivity, by positivity, by positivity, fun h => hok.ne ?_, he⟩
    exact (div_left_inj' hk0.ne').mp h
  have hf : IsForcing R d n fun i => F i / L.sc R.wm2 := by
    refine forcing L hF ?_
    rintro vals u rfl
    obtain ⟨m', hs, -⟩ := h
    obtain ⟨vals', u', v, hg, -⟩ := IRM.simulate_ok hs
    obtain ⟨h1, h2, -⟩ := hg
    cases h1
    exact h2
  have hκ : IsNum R ⟨.fin 1, m.q1.unit⟩ R.cwm2 (scaleOf L.scale m.q1.unit / r) := by
    refine num L hc.q1Unit ⟨1, rfl, ?_⟩
    rw [one_mul]
  have key := ((IRM.produces_iff' L hc hp hokp hκ hn.ne' hf T1 T2 U).mp h).2
  obtain ⟨s1, s2, s3, s4⟩ := IRPar.scaled_uptake hokp hr0 hk0 P.dt P.e rfl
  have hPe : (⟨P.q1 / r * r, P.q2 / r * r, P.d1 / k * k, P.d2 / k * k, P.e, P.dt⟩ : IRPar) = P := by
    obtain ⟨x1, x2, x3, x4, x5, x6⟩ := P
    simp only [div_mul_cancel₀ _ hr0.ne', div_mul_cancel₀ _ hk0.ne']
  simp only at s1 s2 s3 s4
  rw [hPe] at s1 s2 s3 s4
  obtain ⟨⟨a0, a⟩, ⟨b0, b⟩, ⟨c0, c⟩⟩ := key
  rw [scW] at a b c
  rw [← e2]
  refine ⟨⟨fun h0 => by simp only [a0 h0, zero_mul], fun i hi => ?_⟩, ⟨fun h0 => by simp only [b0 h0, zero_mul], fun i hi => ?_⟩,
    ⟨fun h0 => by simp only [c0 h0, zero_mul], fun i hi => ?_⟩⟩
  · have := a i hi
    simp only at this ⊢
    rw [this, div_div_div_cancel_right₀ hk0.ne', e2]
    field_simp
  · have := b i hi
    simp only at this ⊢
    rw [this, div_div_div_cancel_right₀ hk0.ne', e2]
    field_simp
  · have := c i hi
    simp only at this ⊢
    rw [this, s1, s2, s3, s4, e2]
    field_simp

private theorem size {q : Qty N XR} {u : Units N} {x : ℝ} (h : IsNum R q u x) : Size L q (x * L.sc u) := by
  obtain ⟨h1, -⟩ := L.isNum_iff.mp h
  have := L.sc_ne q.unit
  refine ⟨x * L.sc u / L.sc q.unit, by conv_lhs => rw [h1]; rw [L.quant_mag], ?_⟩
  show _ = _ * L.sc q.unit
  field_simp

omit L in
/-- Concrete case: depth of the mixed layer in km, state-dependent feedback, forcing in kW/m²; the run succeeds. -/
example : ∃ (m : TLM U0 XR) (P : TLPar) (d : DArg U0 XR) (T TD U : ℕ → ℝ), TLM.Reachable U0.reg m ∧ m.Sizes U0.lawful P ∧
    P.Ok ∧ P.a ≠ 0 ∧ m.du.unit = u1 U0.kilometer ∧ SizeForcing U0.lawful d 2 (fun i => ((i : ℝ) + 1) * 1000) ∧
    TLM.Produces U0.reg m d 2 T TD U := by
  set p : TLPar := { TLPar.default with a := 1 / 20 } with hp
  have s1 : U0.lawful.scale U0.reg.watt = 1 := rfl
  have s2 : U0.lawful.scale U0.reg.meter = 1 := rfl
  have s3 : U0.lawful.scale U0.reg.ddegC = 1 := rfl
  have s4 : U0.lawful.scale U0.reg.second = 1 := rfl
  have s5 : U0.lawful.scale U0.reg.kilogram = 1 := rfl
  have s6 : U0.lawful.scale U0.reg.joule = 1 := rfl
  have eW : U0.lawful.sc U0.reg.wm2 = 1 := by rw [scW, s1, s2]; norm_num
  have em : U0.lawful.sc U0.reg.m = 1 := sc1 _ _
  have es : U0.lawful.sc U0.reg.s = 1 := sc1 _ _
  have e1 : U0.lawful.sc U0.reg.one = 1 := Registry.Lawful.sc_zero _
  have e2 : U0.lawful.sc U0.reg.wm2c = 1 := by
    rw [Registry.wm2c, Registry.Lawful.sc_sub, eW, sc1, s3]; norm_num
  have e3 : U0.lawful.sc U0.reg.wm2cc = 1 := by
    rw [Registry.wm2cc, Registry.Lawful.sc_sub, eW, sc2, s3]; norm_num
  obtain ⟨h1, h2⟩ := TLM.init_phys U0.lawful (p := p)
    (du := ⟨.fin (p.C / (1000 * 4181) / 1000), u1 U0.kilometer⟩) (dl := ⟨.fin (p.D / (1000 * 4181)), U0.reg.m⟩)
    (l := ⟨.fin p.l, U0.reg.wm2c⟩) (a := ⟨.fin p.a, U0.reg.wm2cc⟩)
    (ef := ⟨.fin p.e, U0.reg.one⟩) (et := ⟨.fin p.h, U0.reg.wm2c⟩) (dt := ⟨.fin p.dt, U0.reg.s⟩)
    (by have := U0.km_num (p.C / (1000 * 4181) / 1000)
        rwa [div_mul_cancel₀ _ (by norm_num : (1000 : ℝ) ≠ 0)] at this)
    (isNum_self _ _) (isNum_self _ _) (isNum_self _ _) (isNum_self _ _) (isNum_self _ _) (isNum_self _ _)
  have hok : p.Ok := by constructor <;> norm_num [hp, TLPar.default]
  have hr : TLM.Reachable U0.reg _ := ⟨_, _, [], h1, rfl⟩
  have hf : IsForcing U0.reg (.qty ⟨1, [.fin 1, .fin 2]⟩ U0.kwU) 2 (fun i => ((i : ℝ) + 1) * 1000) := by
    refine ⟨_, _, rfl, rfl, fun i hi => ?_⟩
    simp only [List.length_cons, List.length_nil] at hi
    interval_cases i
    · simpa using U0.kw_num 1
    · have := U0.kw_num 2; norm_num at this ⊢; exact this
  obtain ⟨T, TD, U, hT, -⟩ := C15_two_layer_exists_unique U0.lawful hr h2 hok two_ne_zero hf
  refine ⟨_, p, _, T, TD, U, hr, ⟨?_, ?_, ?_, ?_, ?_, ?_, ?_⟩, hok, by norm_num [hp], rfl, ?_, hT⟩
  · have := size U0.lawful h2.du; rw [em, mul_one] at this
    rw [s2, s3, s5, s6]; norm_num at this ⊢; exact this
  · have := size U0.lawful h2.dl; rw [em, mul_one] at this
    rw [s2, s3, s5, s6]; norm_num at this ⊢; exact this
  · have := size U0.lawful h2.lambda0; rwa [e2, mul_one] at this
  · have := size U0.lawful h2.a; rwa [e3, mul_one] at this
  · have := size U0.lawful h2.efficacy; rwa [e1, mul_one] at this
  · have := size U0.lawful h2.eta; rwa [e2, mul_one] at this
  · have := size U0.lawful h2.dt; rwa [es, mul_one] at this
  · obtain ⟨vals, u, g1, g2, g3⟩ := hf
    refine ⟨vals, u, g1, g2, fun i hi => ?_⟩
    have := size U0.lawful (g3 i hi); rwa [eW, mul_one] at this

/-- Concrete case for the impulse response model: sizes exist for every object whose parameters are numbers; here the
default parameters. -/
example (p : IRPar) (hok : p.Ok) : ∃ (m : IRM N XR) (P : IRPar) (d : DArg N XR) (T1 T2 U : ℕ → ℝ), IRM.Reachable R m ∧
    m.Sizes L P ∧ P.Ok ∧ SizeForcing L d 10 (fun i => i * L.sc R.wm2) ∧ IRM.Produces R m d 10 T1 T2 U := by
  obtain ⟨m, h1, h2, -, -, -, h3⟩ := IRM.any_run L p hok (n := 10) (by norm_num) (fun i => (i : ℝ))
  have hq1 := hok.q1; have hq2 := hok.q2; have hd1 := hok.d1; have he := hok.e
  have k1 := L.sc_pos R.cwm2
  have k2 := L.sc_pos R.yr
  have k3 : L.sc R.one = 1 := L.sc_zero
  refine ⟨m, ⟨_, _, _, _, _, _⟩, _, _, _, _, h1, ⟨size L h2.q1, size L h2.q2, size L h2.d1, size L h2.d2,
    size L h2.efficacy, size L h2.dt⟩, ⟨mul_pos hq1 k1, mul_pos hq2 k1, mul_pos hd1 k2,
    mul_lt_mul_of_pos_right hok.d2 k2, by rw [k3, mul_one]; exact he⟩, ?_, h3⟩
  obtain ⟨vals, u, g1, g2, g3⟩ := forcing_exists (R := R) 10 (fun i => (i : ℝ))
  exact ⟨vals, u, g1, g2, fun i hi => size L (g3 i hi)⟩

end TwoLayer
