import Verif.Spec.Observe
import Verif.Proofs.Init

/-!
# C09–C14: parameters, drivers, construction, history
-/

set_option linter.unusedSimpArgs false
set_option linter.unusedSectionVars false

namespace TwoLayer
variable {N α : Type} [Fintype N] [DecidableEq N] [Arith α]

theorem convertible_iff {R : Registry N α} {q : Qty N α} {u : Units N} : Convertible R q u ↔ UnitOk R q.unit u := by
  constructor
  · rintro ⟨q', h⟩
    unfold Qty.toUnit at h
    split at h
    · next h' => exact h'
    · cases h
  · intro h; exact ⟨_, toUnit_ok h⟩

/-! ## C09 History independence -/

theorem TLM.ready_eq {R : Registry N α} {m₁ m₂ : TLM N α} (h₁ : m₁.Coherent R) (h₂ : m₂.Coherent R)
    (hp : m₁.pub = m₂.pub) (vals : List α) (u : Units N) : m₁.ready R vals u = m₂.ready R vals u := by
  simp only [TLM.pub, TLM.Public.mk.injEq] at hp
  obtain ⟨p1, p2, p3, p4, p5, p6, p7⟩ := hp
  simp only [TLM.ready, TLM.mk.injEq, Core.mk.injEq, h₁.duMag, h₂.duMag, h₁.hcuMag, h₂.hcuMag, h₁.dlMag, h₂.dlMag,
    h₁.hclMag, h₂.hclMag, h₁.lambda0Mag, h₂.lambda0Mag, h₁.aMag, h₂.aMag, h₁.efficacyMag, h₂.efficacyMag, h₁.etaMag,
    h₂.etaMag, h₁.core.dtMag, h₂.core.dtMag, p1, p2, p3, p4, p5, p6, p7, TLM.heatCapacityUpper,
    TLM.heatCapacityLower, and_self]

theorem TLM.simulate_bad_eq (R : Registry N α) (m₁ m₂ : TLM N α) {d : DArg N α}
    (h : ∀ vals u, ¬ GoodDrivers R d vals u) :
    ∃ e, (TLM.simulate R d m₁).2 = .error e ∧ (TLM.simulate R d m₂).2 = .error e := by
  cases d with
  | bare a =>
    by_cases ha : a.ndim = 1 <;>
      simp [TLM.simulate, Py.bind_apply, TLM.setDrivers, Py.onCore, Core.setDrivers, Core.setErf, ha]
  | qty a u =>
    obtain ⟨nd, vals⟩ := a
    by_cases ha : nd = 1
    · subst ha
      by_cases hu : (u = R.wm2 ∨ R.compat u R.wm2 = true)
      · by_cases hn : vals.any Arith.isNaN = false
        · exact absurd ⟨rfl, hu, hn⟩ (h vals u)
        · simp only [Bool.not_eq_false] at hn
          refine ⟨.modelState, ?_, ?_⟩ <;>
          · simp only [TLM.simulate, Py.bind_apply]
            rw [TLM.setDrivers_good R _ hu]
            simp only
            rw [TLM.reset_nan _ (by exact hn)]
      · simp [TLM.simulate, Py.bind_apply, TLM.setDrivers, Py.onCore, Core.setDrivers, Core.setErf, hu]
    · simp [TLM.simulate, Py.bind_apply, TLM.setDrivers, Py.onCore, Core.setDrivers, Core.setErf, ha]

/-- Two objects a program can hold (after any history of calls, failing ones included) with the same public
parameters: `set_drivers` + `reset` + `run` returns or raises the same on both, and on success leaves the
same object behind, outputs included. -/
theorem C09_two_layer [DecidableEq α] {R : Registry N α} (D : R.Dimensional) {m₁ m₂ : TLM N α}
    (h₁ : TLM.Reachable R m₁) (h₂ : TLM.Reachable R m₂) (hp : m₁.pub = m₂.pub) (d : DArg N α) :
    (TLM.simulate R d m₁).2 = (TLM.simulate R d m₂).2 ∧
    ((TLM.simulate R d m₁).2 = .ok () → (TLM.simulate R d m₁).1 = (TLM.simulate R d m₂).1) := by
  have c₁ := TLM.Reachable.coherent R D h₁
  have c₂ := TLM.Reachable.coherent R D h₂
  by_cases hg : ∃ vals u, GoodDrivers R d vals u
  · obtain ⟨vals, u, hg⟩ := hg
    rw [TLM.simulate_good R m₁ hg, TLM.simulate_good R m₂ hg, TLM.ready_eq c₁ c₂ hp]
    exact ⟨rfl, fun _ => rfl⟩
  · obtain ⟨e, e1, e2⟩ := TLM.simulate_bad_eq R m₁ m₂ (fun v u hh => hg ⟨v, u, hh⟩)
    rw [e1, e2]
    exact ⟨rfl, fun h => by cases h⟩

/-- In particular every reachable object behaves as one freshly constructed from its current parameters. -/
theorem C09_two_layer_fresh [DecidableEq α] {R : Registry N α} (D : R.Dimensional) {m : TLM N α}
    (h : TLM.Reachable R m) : ∃ m₀, TLM.init R ⟨.qty m.pub.du, .qty m.pub.dl, .qty m.pub.lambda0, .qty m.pub.a,
      .qty m.pub.efficacy, .qty m.pub.eta, .qty m.pub.deltaT⟩ = .ok m₀ ∧
      ∀ d, (TLM.simulate R d m).2 = (TLM.simulate R d m₀).2 ∧
        ((TLM.simulate R d m).2 = .ok () → (TLM.simulate R d m).1 = (TLM.simulate R d m₀).1) := by
  have c := TLM.Reachable.coherent R D h
  have hi := TLM.init_good D c.duUnit c.dlUnit c.lambda0Unit c.aUnit c.efficacyUnit c.etaUnit c.core.dtUnit
  exact ⟨_, hi, fun d => C09_two_layer D h ⟨_, _, [], hi, rfl⟩ rfl d⟩

theorem IRM.ready_eq {R : Registry N α} {m₁ m₂ : IRM N α} (h₁ : m₁.Coherent R) (h₂ : m₂.Coherent R)
    (hp : m₁.pub = m₂.pub) (vals : List α) (u : Units N) : m₁.ready R vals u = m₂.ready R vals u := by
  simp only [IRM.pub, IRM.Public.mk.injEq] at hp
  obtain ⟨p1, p2, p3, p4, p5, p6⟩ := hp
  simp only [IRM.ready, IRM.mk.injEq, Core.mk.injEq, h₁.q1Mag, h₂.q1Mag, h₁.q2Mag, h₂.q2Mag, h₁.d1Mag, h₂.d1Mag,
    h₁.d2Mag, h₂.d2Mag, h₁.efficacyMag, h₂.efficacyMag, h₁.core.dtMag, h₂.core.dtMag, p1, p2, p3, p4, p5, p6, and_self]

theorem IRM.simulate_bad_eq (R : Registry N α) (m₁ m₂ : IRM N α) {d : DArg N α}
    (h : ∀ vals u, ¬ GoodDrivers R d vals u) :
    ∃ e, (IRM.simulate R d m₁).2 = .error e ∧ (IRM.simulate R d m₂).2 = .error e := by
  cases d with
  | bare a =>
    by_cases ha : a.ndim = 1 <;>
      simp [IRM.simulate, Py.bind_apply, IRM.setDrivers, Py.onCore, Core.setDrivers, Core.setErf, ha]
  | qty a u =>
    obtain ⟨nd, vals⟩ := a
    by_cases ha : nd = 1
    · subst ha
      by_cases hu : (u = R.wm2 ∨ R.compat u R.wm2 = true)
      · by_cases hn : vals.any Arith.isNaN = false
        · exact absurd ⟨rfl, hu, hn⟩ (h vals u)
        · simp only [Bool.not_eq_false] at hn
          refine ⟨.modelState, ?_, ?_⟩ <;>
          · simp only [IRM.simulate, Py.bind_apply]
            rw [IRM.setDrivers_good R _ hu]
            simp only
            rw [IRM.reset_nan _ (by exact hn)]
      · simp [IRM.simulate, Py.bind_apply, IRM.setDrivers, Py.onCore, Core.setDrivers, Core.setErf, hu]
    · simp [IRM.simulate, Py.bind_apply, IRM.setDrivers, Py.onCore, Core.setDrivers, Core.setErf, ha]

theorem C09_impulse_response [DecidableEq α] {R : Registry N α} {m₁ m₂ : IRM N α}
    (h₁ : IRM.Reachable R m₁) (h₂ : IRM.Reachable R m₂) (hp : m₁.pub = m₂.pub) (d : DArg N α) :
    (IRM.simulate R d m₁).2 = (IRM.simulate R d m₂).2 ∧
    ((IRM.simulate R d m₁).2 = .ok () → (IRM.simulate R d m₁).1 = (IRM.simulate R d m₂).1) := by
  have c₁ := IRM.Reachable.coherent R h₁
  have c₂ := IRM.Reachable.coherent R h₂
  by_cases hg : ∃ vals u, GoodDrivers R d vals u
  · obtain ⟨vals, u, hg⟩ := hg
    rw [IRM.simulate_good R m₁ hg, IRM.simulate_good R m₂ hg, IRM.ready_eq c₁ c₂ hp]
    exact ⟨rfl, fun _ => rfl⟩
  · obtain ⟨e, e1, e2⟩ := IRM.simulate_bad_eq R m₁ m₂ (fun v u hh => hg ⟨v, u, hh⟩)
    rw [e1, e2]
    exact ⟨rfl, fun h => by cases h⟩

/-! ## C10 Internal magnitudes follow the public parameters -/

/-- After any history of calls, the numbers a two-layer object integrates with are its current public parameters
converted to model units; both heat capacities included. -/
theorem C10_two_layer [DecidableEq α] {R : Registry N α} (D : R.Dimensional) {m : TLM N α} (h : TLM.Reachable R m) :
    m.du.toUnit R R.m = .ok ⟨m.duMag, R.m⟩ ∧
    m.dl.toUnit R R.m = .ok ⟨m.dlMag, R.m⟩ ∧
    ((m.du.mul R.densityWater).mul R.heatCapacityWater).toUnit R R.jm2c = .ok ⟨m.hcuMag, R.jm2c⟩ ∧
    ((m.dl.mul R.densityWater).mul R.heatCapacityWater).toUnit R R.jm2c = .ok ⟨m.hclMag, R.jm2c⟩ ∧
    m.lambda0.toUnit R R.wm2c = .ok ⟨m.lambda0Mag, R.wm2c⟩ ∧
    m.a.toUnit R R.wm2cc = .ok ⟨m.aMag, R.wm2cc⟩ ∧
    m.efficacy.toUnit R R.one = .ok ⟨m.efficacyMag, R.one⟩ ∧
    m.eta.toUnit R R.wm2c = .ok ⟨m.etaMag, R.wm2c⟩ ∧
    m.core.deltaT.toUnit R R.s = .ok ⟨m.core.deltaTMag, R.s⟩ ∧
    (∀ vals u, m.core.erf = .set vals u → m.core.erfMag = some (vals.map fun x => (Qty.mk x u).magIn R R.wm2)) := by
  have c := TLM.Reachable.coherent R D h
  refine ⟨?_, ?_, ?_, ?_, ?_, ?_, ?_, ?_, ?_, ?_⟩
  · rw [toUnit_ok c.duUnit, c.duMag]
  · rw [toUnit_ok c.dlUnit, c.dlMag]
  · rw [c.hcuMag]; exact toUnit_ok (D.heat_ok c.duUnit)
  · rw [c.hclMag]; exact toUnit_ok (D.heat_ok c.dlUnit)
  · rw [toUnit_ok c.lambda0Unit, c.lambda0Mag]
  · rw [toUnit_ok c.aUnit, c.aMag]
  · rw [toUnit_ok c.efficacyUnit, c.efficacyMag]
  · rw [toUnit_ok c.etaUnit, c.etaMag]
  · rw [toUnit_ok c.core.dtUnit, c.core.dtMag]
  · intro vals u hs
    have := c.core.erf
    rw [hs] at this
    exact this.2

theorem C10_impulse_response [DecidableEq α] {R : Registry N α} {m : IRM N α} (h : IRM.Reachable R m) :
    m.q1.toUnit R R.cwm2 = .ok ⟨m.q1Mag, R.cwm2⟩ ∧
    m.q2.toUnit R R.cwm2 = .ok ⟨m.q2Mag, R.cwm2⟩ ∧
    m.d1.toUnit R R.yr = .ok ⟨m.d1Mag, R.yr⟩ ∧
    m.d2.toUnit R R.yr = .ok ⟨m.d2Mag, R.yr⟩ ∧
    m.efficacy.toUnit R R.one = .ok ⟨m.efficacyMag, R.one⟩ ∧
    m.core.deltaT.toUnit R R.yr = .ok ⟨m.core.deltaTMag, R.yr⟩ ∧
    (∀ vals u, m.core.erf = .set vals u → m.core.erfMag = some (vals.map fun x => (Qty.mk x u).magIn R R.wm2)) := by
  have c := IRM.Reachable.coherent R h
  refine ⟨?_, ?_, ?_, ?_, ?_, ?_, ?_⟩
  · rw [toUnit_ok c.q1Unit, c.q1Mag]
  · rw [toUnit_ok c.q2Unit, c.q2Mag]
  · rw [toUnit_ok c.d1Unit, c.d1Mag]
  · rw [toUnit_ok c.d2Unit, c.d2Mag]
  · rw [toUnit_ok c.efficacyUnit, c.efficacyMag]
  · rw [toUnit_ok c.core.dtUnit, c.core.dtMag]
  · intro vals u hs
    have := c.core.erf
    rw [hs] at this
    exact this.2

/-! ## C11 Setter contract -/

/-- What assigning a parameter must do. `pub` reads all public parameters, `upd` says which one changes, `rest`
is everything else a user can see (drivers, outputs, time index). -/
structure SetterSpec {σ P Q : Type} (R : Registry N α) (set : Arg N α → Py σ Unit) (name : String) (u : Units N)
    (pub : σ → P) (upd : P → Qty N α → P) (rest : σ → Q) : Prop where
  /-- not a Quantity: TypeError, object unchanged -/
  bare : ∀ m, set .bare m = (m, .error (.typeError name))
  /-- wrong dimension: UnitError, object unchanged -/
  wrong : ∀ m q, ¬ Convertible R q u → set (.qty q) m = (m, .error (.unitError name))
  /-- otherwise: exactly this parameter becomes exactly this Quantity -/
  right : ∀ m q, Convertible R q u →
    ∃ m', set (.qty q) m = (m', .ok ()) ∧ pub m' = upd (pub m) q ∧ rest m' = rest m

/-- drivers, outputs and time index of a two-layer object -/
def TLM.rest (m : TLM N α) : Erf N α × List (String × String × List α) × Option Nat := (m.core.erf, m.outputs, m.idx)
/-- drivers, outputs and time index of an impulse response object -/
def IRM.rest (m : IRM N α) : Erf N α × List (String × String × List α) × Option Nat := (m.core.erf, m.outputs, m.idx)

theorem SetterSpec.of {σ P Q : Type} {R : Registry N α} {set : Arg N α → Py σ Unit} {name : String} {u : Units N}
    {pub : σ → P} {upd : P → Qty N α → P} {rest : σ → Q}
    (f : Qty N α → σ → σ)
    (hset : ∀ v m, set v m = match checkQty R v name u with
      | .ok q => (f q m, .ok ())
      | .error e => (m, .error e))
    (h1 : ∀ q m, pub (f q m) = upd (pub m) q) (h2 : ∀ q m, rest (f q m) = rest m) :
    SetterSpec R set name u pub upd rest where
  bare m := by rw [hset, checkQty_bare]
  wrong m q h := by rw [hset, checkQty_bad (fun h' => h (convertible_iff.mpr h'))]
  right m q h := ⟨f q m, by rw [hset, checkQty_good (convertible_iff.mp h)], h1 q m, h2 q m⟩

theorem C11_two_layer {R : Registry N α} (D : R.Dimensional) :
    SetterSpec R (TLM.setDu R) "du" R.m TLM.pub (fun p q => { p with du := q }) TLM.rest ∧
    SetterSpec R (TLM.setDl R) "dl" R.m TLM.pub (fun p q => { p with dl := q }) TLM.rest ∧
    SetterSpec R (TLM.setLambda0 R) "lambda0" R.wm2c TLM.pub (fun p q => { p with lambda0 := q }) TLM.rest ∧
    SetterSpec R (TLM.setA R) "a" R.wm2cc TLM.pub (fun p q => { p with a := q }) TLM.rest ∧
    SetterSpec R (TLM.setEfficacy R) "efficacy" R.one TLM.pub (fun p q => { p with efficacy := q }) TLM.rest ∧
    SetterSpec R (TLM.setEta R) "eta" R.wm2c TLM.pub (fun p q => { p with eta := q }) TLM.rest ∧
    SetterSpec R (TLM.setDeltaT R) "delta_t" R.s TLM.pub (fun p q => { p with deltaT := q }) TLM.rest := by
  refine ⟨?_, ?_, ?_, ?_, ?_, ?_, ?_⟩
  · refine ⟨fun m => by simp [TLM.setDu, checkQty_bare], fun m q h => ?_, fun m q h => ?_⟩
    · simp [TLM.setDu, checkQty_bad (fun h' => h (convertible_iff.mpr h'))]
    · exact ⟨_, TLM.setDu_ok R D (convertible_iff.mp h) m, rfl, rfl⟩
  · refine ⟨fun m => by simp [TLM.setDl, checkQty_bare], fun m q h => ?_, fun m q h => ?_⟩
    · simp [TLM.setDl, checkQty_bad (fun h' => h (convertible_iff.mpr h'))]
    · exact ⟨_, TLM.setDl_ok R D (convertible_iff.mp h) m, rfl, rfl⟩
  · refine SetterSpec.of (fun q m => { m with lambda0 := q, lambda0Mag := q.magIn R R.wm2c }) (fun v m => ?_)
      (fun _ _ => rfl) (fun _ _ => rfl)
    simp only [TLM.setLambda0, Py.bind_apply, Py.lift_apply]
    cases checkQty R v "lambda0" R.wm2c <;> rfl
  · refine SetterSpec.of (fun q m => { m with a := q, aMag := q.magIn R R.wm2cc }) (fun v m => ?_)
      (fun _ _ => rfl) (fun _ _ => rfl)
    simp only [TLM.setA, Py.bind_apply, Py.lift_apply]
    cases checkQty R v "a" R.wm2cc <;> rfl
  · refine SetterSpec.of (fun q m => { m with efficacy := q, efficacyMag := q.magIn R R.one }) (fun v m => ?_)
      (fun _ _ => rfl) (fun _ _ => rfl)
    simp only [TLM.setEfficacy, Py.bind_apply, Py.lift_apply]
    cases checkQty R v "efficacy" R.one <;> rfl
  · refine SetterSpec.of (fun q m => { m with eta := q, etaMag := q.magIn R R.wm2c }) (fun v m => ?_)
      (fun _ _ => rfl) (fun _ _ => rfl)
    simp only [TLM.setEta, Py.bind_apply, Py.lift_apply]
    cases checkQty R v "eta" R.wm2c <;> rfl
  · refine SetterSpec.of (fun q m => { m with core := { m.core with deltaT := q, deltaTMag := q.magIn R R.s } })
      (fun v m => ?_) (fun _ _ => rfl) (fun _ _ => rfl)
    simp only [TLM.setDeltaT, Py.onCore, Core.setDeltaT, Py.bind_apply, Py.lift_apply]
    cases checkQty R v "delta_t" R.s <;> rfl

theorem C11_impulse_response (R : Registry N α) :
    SetterSpec R (IRM.setQ1 R) "q1" R.cwm2 IRM.pub (fun p q => { p with q1 := q }) IRM.rest ∧
    SetterSpec R (IRM.setQ2 R) "q2" R.cwm2 IRM.pub (fun p q => { p with q2 := q }) IRM.rest ∧
    SetterSpec R (IRM.setD1 R) "d1" R.yr IRM.pub (fun p q => { p with d1 := q }) IRM.rest ∧
    SetterSpec R (IRM.setD2 R) "d2" R.yr IRM.pub (fun p q => { p with d2 := q }) IRM.rest ∧
    SetterSpec R (IRM.setEfficacy R) "efficacy" R.one IRM.pub (fun p q => { p with efficacy := q }) IRM.rest ∧
    SetterSpec R (IRM.setDeltaT R) "delta_t" R.yr IRM.pub (fun p q => { p with deltaT := q }) IRM.rest := by
  refine ⟨?_, ?_, ?_, ?_, ?_, ?_⟩
  · refine SetterSpec.of (fun q m => { m with q1 := q, q1Mag := q.magIn R R.cwm2 }) (fun v m => ?_)
      (fun _ _ => rfl) (fun _ _ => rfl)
    simp only [IRM.setQ1, Py.bind_apply, Py.lift_apply]
    cases checkQty R v "q1" R.cwm2 <;> rfl
  · refine SetterSpec.of (fun q m => { m with q2 := q, q2Mag := q.magIn R R.cwm2 }) (fun v m => ?_)
      (fun _ _ => rfl) (fun _ _ => rfl)
    simp only [IRM.setQ2, Py.bind_apply, Py.lift_apply]
    cases checkQty R v "q2" R.cwm2 <;> rfl
  · refine SetterSpec.of (fun q m => { m with d1 := q, d1Mag := q.magIn R R.yr }) (fun v m => ?_)
      (fun _ _ => rfl) (fun _ _ => rfl)
    simp only [IRM.setD1, Py.bind_apply, Py.lift_apply]
    cases checkQty R v "d1" R.yr <;> rfl
  · refine SetterSpec.of (fun q m => { m with d2 := q, d2Mag := q.magIn R R.yr }) (fun v m => ?_)
      (fun _ _ => rfl) (fun _ _ => rfl)
    simp only [IRM.setD2, Py.bind_apply, Py.lift_apply]
    cases checkQty R v "d2" R.yr <;> rfl
  · refine SetterSpec.of (fun q m => { m with efficacy := q, efficacyMag := q.magIn R R.one }) (fun v m => ?_)
      (fun _ _ => rfl) (fun _ _ => rfl)
    simp only [IRM.setEfficacy, Py.bind_apply, Py.lift_apply]
    cases checkQty R v "efficacy" R.one <;> rfl
  · refine SetterSpec.of (fun q m => { m with core := { m.core with deltaT := q, deltaTMag := q.magIn R R.yr } })
      (fun v m => ?_) (fun _ _ => rfl) (fun _ _ => rfl)
    simp only [IRM.setDeltaT, Py.onCore, Core.setDeltaT, Py.bind_apply, Py.lift_apply]
    cases checkQty R v "delta_t" R.yr <;> rfl

/-- Both branches occur: a kilometre is an acceptable depth, a second is not. -/
example : Convertible U0.reg ⟨.fin 1, u1 .kilometer⟩ U0.reg.m ∧ ¬ Convertible U0.reg ⟨.fin 1, U0.reg.s⟩ U0.reg.m := by
  rw [convertible_iff, convertible_iff, U0.lawful.unitOk_iff, U0.lawful.unitOk_iff]
  simp only [Registry.m, Registry.s, U0.lawful.dm_u1]
  constructor
  · rfl
  · intro h
    have := congrFun h (0 : Fin 4)
    simp [U0.lawful, U0.dim, U0.reg] at this

/-! ## C12 Constructor contract -/

/-- `TwoLayerModel(...)` succeeds exactly when every argument is a Quantity of the right dimension; the object then
holds exactly the arguments, and drivers are unset. -/
theorem C12_two_layer {R : Registry N α} (D : R.Dimensional) (x : TLM.Args N α) (m : TLM N α) :
    TLM.init R x = .ok m →
      ∃ du dl l a ef et dt, x = ⟨.qty du, .qty dl, .qty l, .qty a, .qty ef, .qty et, .qty dt⟩ ∧
        m.pub = ⟨du, dl, l, a, ef, et, dt⟩ ∧ m.core.erf = .unset := by
  intro h
  obtain ⟨du, dl, l, a, ef, et, dt, rfl, -, -, -, -, -, -, -, rfl⟩ := TLM.init_ok R h
  exact ⟨du, dl, l, a, ef, et, dt, rfl, rfl, rfl⟩

theorem C12_two_layer_iff {R : Registry N α} (D : R.Dimensional) (x : TLM.Args N α) :
    (∃ m, TLM.init R x = .ok m) ↔
      ∃ du dl l a ef et dt, x = ⟨.qty du, .qty dl, .qty l, .qty a, .qty ef, .qty et, .qty dt⟩ ∧
        Convertible R du R.m ∧ Convertible R dl R.m ∧ Convertible R l R.wm2c ∧ Convertible R a R.wm2cc ∧
        Convertible R ef R.one ∧ Convertible R et R.wm2c ∧ Convertible R dt R.s := by
  simp only [convertible_iff]
  constructor
  · rintro ⟨m, h⟩
    obtain ⟨du, dl, l, a, ef, et, dt, rfl, h1, h2, h3, h4, h5, h6, h7, -⟩ := TLM.init_ok R h
    exact ⟨du, dl, l, a, ef, et, dt, rfl, h1, h2, h3, h4, h5, h6, h7⟩
  · rintro ⟨du, dl, l, a, ef, et, dt, rfl, h1, h2, h3, h4, h5, h6, h7⟩
    exact ⟨_, TLM.init_good D h1 h2 h3 h4 h5 h6 h7⟩

/-- `ImpulseResponseModel(...)`: the same, with the comparison `d1 >= d2` false. -/
theorem C12_impulse_response (R : Registry N α) (x : IRM.Args N α) (m : IRM N α) :
    IRM.init R x = .ok m →
      ∃ q1 q2 d1 d2 ef dt, x = ⟨.qty q1, .qty q2, .qty d1, .qty d2, .qty ef, .qty dt⟩ ∧
        m.pub = ⟨q1, q2, d1, d2, ef, dt⟩ ∧ m.core.erf = .unset := by
  intro h
  obtain ⟨q1, q2, d1, d2, ef, dt, rfl, -, -, -, -, -, -, -, rfl⟩ := IRM.init_ok R h
  exact ⟨q1, q2, d1, d2, ef, dt, rfl, rfl, rfl⟩

/-- In exact arithmetic, for arguments of the right dimension with timescales of `s1` and `s2` years in any units:
construction succeeds if `s1 < s2` and raises ValueError otherwise. -/
theorem C12_impulse_response_iff {R : Registry N XR} (L : R.Lawful) (q1 q2 d1 d2 ef dt : Qty N XR) (s1 s2 : ℝ)
    (h1 : Convertible R q1 R.cwm2) (h2 : Convertible R q2 R.cwm2) (h3 : IsNum R d1 R.yr s1) (h4 : IsNum R d2 R.yr s2)
    (h5 : Convertible R ef R.one) (h6 : Convertible R dt R.yr) :
    (s1 < s2 → ∃ m, IRM.init R ⟨.qty q1, .qty q2, .qty d1, .qty d2, .qty ef, .qty dt⟩ = .ok m) ∧
    (s2 ≤ s1 → IRM.init R ⟨.qty q1, .qty q2, .qty d1, .qty d2, .qty ef, .qty dt⟩ =
      .error (.value "The short-timescale must be d1")) := by
  have hge : d1.ge R d2 = .ok (decide (s2 ≤ s1)) := by
    obtain ⟨a1, b1⟩ := L.isNum_iff.mp h3
    obtain ⟨a2, b2⟩ := L.isNum_iff.mp h4
    rw [a1, a2, L.ge_mk _ _ _ _ (b1.trans b2.symm)]
    congr 1
    exact decide_eq_decide.mpr (mul_le_mul_iff_left₀ (L.sc_pos R.yr))
  have key := IRM.init_good (convertible_iff.mp h1) (convertible_iff.mp h2) h3.unitOk h4.unitOk (convertible_iff.mp h5)
    (convertible_iff.mp h6)
  rw [hge] at key
  constructor
  · intro hlt
    rw [decide_eq_false (not_le.mpr hlt)] at key
    exact ⟨_, key⟩
  · intro hle
    rw [decide_eq_true hle] at key
    exact key

/-- Arguments that are not all Quantities of the right dimension are refused. -/
theorem C12_impulse_response_refuses (R : Registry N α) (x : IRM.Args N α)
    (h : ¬ ∃ q1 q2 d1 d2 ef dt, x = ⟨.qty q1, .qty q2, .qty d1, .qty d2, .qty ef, .qty dt⟩ ∧
      Convertible R q1 R.cwm2 ∧ Convertible R q2 R.cwm2 ∧ Convertible R d1 R.yr ∧ Convertible R d2 R.yr ∧
      Convertible R ef R.one ∧ Convertible R dt R.yr) : ∃ e, IRM.init R x = .error e := by
  cases hi : IRM.init R x with
  | error e => exact ⟨e, rfl⟩
  | ok m =>
    obtain ⟨q1, q2, d1, d2, ef, dt, rfl, h1, h2, h3, h4, h5, h6, -⟩ := IRM.init_ok R hi
    simp only [convertible_iff] at h
    exact absurd ⟨q1, q2, d1, d2, ef, dt, rfl, h1, h2, h3, h4, h5, h6⟩ h

/-- 400 days against 9 years: different units, accepted; 9 years against 400 days: refused. -/
example : IsNum U0.reg ⟨.fin 400, u1 .day⟩ U0.reg.yr (400 * 86400 / 31557600) ∧
    IsNum U0.reg ⟨.fin 9, U0.reg.yr⟩ U0.reg.yr 9 := by
  refine ⟨?_, isNum_self _ _⟩
  rw [U0.lawful.isNum_iff]
  refine ⟨?_, by simp only [Registry.yr, U0.lawful.dm_u1]; rfl⟩
  ext1
  · simp only [Registry.Lawful.quant_mag, XR.fin_inj]
    have h1 : U0.lawful.sc (u1 U0.day) = 86400 := by simp [Registry.Lawful.sc, U0.lawful, U0.scale]
    have h2 : U0.lawful.sc U0.reg.yr = 31557600 := by
      simp [Registry.Lawful.sc, U0.lawful, U0.scale, Registry.yr, U0.reg]
    rw [h1, h2]; norm_num
  · rfl

/-! ## C13 The short timescale stays d1 -/

/-- operations that do not assign a timescale -/
def IRM.Op.keepsTimescales : IRM.Op N α → Prop
  | .setD1 _ => False
  | .setD2 _ => False
  | _ => True

/-- `d1 >= d2` is false for this object -/
def IRM.Ordered (R : Registry N α) (m : IRM N α) : Prop := m.d1.ge R m.d2 = .ok false

theorem IRM.keeps [DecidableEq α] (R : Registry N α) (op : IRM.Op N α) (h : op.keepsTimescales) (x y : Qty N α) :
    Py.Pres (fun m : IRM N α => m.d1 = x ∧ m.d2 = y ∧ (m.t2.length = m.t1.length ∧ m.rndt.length = m.t1.length))
      (IRM.call R op) := by
  have hstep : Py.Pres (fun m : IRM N α => m.d1 = x ∧ m.d2 = y ∧
      (m.t2.length = m.t1.length ∧ m.rndt.length = m.t1.length)) (IRM.step R) := by
    rintro m ⟨h1, h2, h3⟩
    obtain ⟨v, hv, hw, -⟩ := IRM.step_frame R m h3
    rw [hv]; exact ⟨h1, h2, hw⟩
  have hcore : ∀ c : Py (Core N α) Unit, Py.Pres (fun m : IRM N α => m.d1 = x ∧ m.d2 = y ∧
      (m.t2.length = m.t1.length ∧ m.rndt.length = m.t1.length))
      (Py.onCore IRM.core (fun m c => { m with core := c }) c) := fun c m hm => hm
  have hreset : Py.Pres (fun m : IRM N α => m.d1 = x ∧ m.d2 = y ∧
      (m.t2.length = m.t1.length ∧ m.rndt.length = m.t1.length)) (IRM.reset (N := N) (α := α)) := by
    rintro m ⟨h1, h2, h3⟩
    unfold IRM.reset
    simp only [Py.bind_apply, Py.get_apply]
    split
    · exact ⟨h1, h2, h3⟩
    · cases m.core.erfMag with
      | none => exact ⟨h1, h2, h3⟩
      | some F => exact ⟨h1, h2, by simp [nanLike]⟩
  have hrun : Py.Pres (fun m : IRM N α => m.d1 = x ∧ m.d2 = y ∧
      (m.t2.length = m.t1.length ∧ m.rndt.length = m.t1.length)) (IRM.run R) :=
    Py.Pres.get.bind fun _ => hstep.times _
  cases op with
  | setD1 v => exact absurd h id
  | setD2 v => exact absurd h id
  | setQ1 v =>
    intro m hm
    simp only [IRM.call, IRM.setQ1, Py.bind_apply, Py.lift_apply]
    cases checkQty R v "q1" R.cwm2 <;> exact hm
  | setQ2 v =>
    intro m hm
    simp only [IRM.call, IRM.setQ2, Py.bind_apply, Py.lift_apply]
    cases checkQty R v "q2" R.cwm2 <;> exact hm
  | setEfficacy v =>
    intro m hm
    simp only [IRM.call, IRM.setEfficacy, Py.bind_apply, Py.lift_apply]
    cases checkQty R v "efficacy" R.one <;> exact hm
  | setDeltaT v => exact hcore _
  | setErf v => exact hcore _
  | setDrivers v => exact hcore _
  | reset => exact hreset
  | step => exact hstep
  | run => exact hrun
  | runScenarios dv scen =>
    exact (runScenarios_pres (IRM.variant R) R (fun v => hcore _) (fun v => hcore _) hreset hrun
      dv scen).bind fun _ => Py.Pres.pure _

/-- Partial: an object has `d1 < d2` as long as neither timescale is assigned after construction.
Missing: assignments; `C13_counterexample` shows that the property fails with them. -/
theorem C13_partial [DecidableEq α] (R : Registry N α) (args : IRM.Args N α) (m₀ : IRM N α)
    (h₀ : IRM.init R args = .ok m₀) (h : List (IRM.Op N α)) (hk : ∀ op ∈ h, op.keepsTimescales) :
    (IRM.after R m₀ h).d1.ge R (IRM.after R m₀ h).d2 = .ok false := by
  obtain ⟨q1, q2, d1, d2, ef, dt, -, -, -, -, -, -, -, hge, hm⟩ := IRM.init_ok R h₀
  have key : ∀ (h : List (IRM.Op N α)) (m : IRM N α), (∀ op ∈ h, op.keepsTimescales) →
      (m.d1 = d1 ∧ m.d2 = d2 ∧ (m.t2.length = m.t1.length ∧ m.rndt.length = m.t1.length)) →
      (IRM.after R m h).d1 = d1 ∧ (IRM.after R m h).d2 = d2 := by
    intro h
    induction h with
    | nil => intro m _ hm; exact ⟨hm.1, hm.2.1⟩
    | cons op h ih =>
      intro m hk hm
      exact ih _ (fun op' h' => hk op' (by simp [h'])) (IRM.keeps R op (hk op (by simp)) d1 d2 m hm)
  obtain ⟨e1, e2⟩ := key h m₀ hk (by rw [hm]; exact ⟨rfl, rfl, rfl, rfl⟩)
  rw [e1, e2]; exact hge

/-- The same in years, in exact arithmetic: as long as neither timescale is assigned, `d1` is fewer years than `d2`,
whatever units they were given in. -/
theorem C13_years_partial {R : Registry N XR} (L : R.Lawful) (args : IRM.Args N XR) (m₀ : IRM N XR)
    (h₀ : IRM.init R args = .ok m₀) (h : List (IRM.Op N XR)) (hk : ∀ op ∈ h, op.keepsTimescales) {s1 s2 : ℝ}
    (h1 : IsNum R (IRM.after R m₀ h).d1 R.yr s1) (h2 : IsNum R (IRM.after R m₀ h).d2 R.yr s2) : s1 < s2 := by
  have hge := C13_partial R args m₀ h₀ h hk
  obtain ⟨a1, b1⟩ := L.isNum_iff.mp h1
  obtain ⟨a2, b2⟩ := L.isNum_iff.mp h2
  rw [a1, a2, L.ge_mk _ _ _ _ (b1.trans b2.symm)] at hge
  have := of_decide_eq_false (Except.ok.inj hge)
  rw [mul_le_mul_iff_left₀ (L.sc_pos R.yr)] at this
  exact not_le.mp this

/-- `ImpulseResponseModel()` has timescales of 9 and 400 years. -/
example : ∃ m : IRM U0 XR, IRM.init U0.reg (IRM.defaultArgs U0.reg) = .ok m ∧ IsNum U0.reg m.d1 U0.reg.yr 9 ∧
    IsNum U0.reg m.d2 U0.reg.yr 400 := by
  obtain ⟨m, h1, h2, -⟩ := IRM.default_exists U0.lawful
  exact ⟨m, h1, h2.d1, h2.d2⟩

/-- The property is false of the code: `m = ImpulseResponseModel(); m.d1 = 500 yr` is accepted although `d2` is
400 years. -/
theorem C13_counterexample : ∃ m : IRM U0 XR, IRM.Reachable U0.reg m ∧ IsNum U0.reg m.d1 U0.reg.yr 500 ∧
    IsNum U0.reg m.d2 U0.reg.yr 400 := by
  obtain ⟨m, h1, h2, -⟩ := IRM.default_exists U0.lawful
  refine ⟨IRM.after U0.reg m [.setD1 (.qty ⟨.fin 500, U0.reg.yr⟩)], ⟨_, m, _, h1, rfl⟩, ?_, ?_⟩
  · simp only [IRM.after, List.foldl, IRM.call, IRM.setD1, Py.bind_apply, Py.lift_apply,
      checkQty_good (R := U0.reg) (q := ⟨.fin 500, U0.reg.yr⟩) (u := U0.reg.yr) (Or.inl rfl), Py.modify_apply]
    exact isNum_self _ _
  · simp only [IRM.after, List.foldl, IRM.call, IRM.setD1, Py.bind_apply, Py.lift_apply,
      checkQty_good (R := U0.reg) (q := ⟨.fin 500, U0.reg.yr⟩) (u := U0.reg.yr) (Or.inl rfl), Py.modify_apply]
    exact h2.d2

/-- Exactly which calls can break or restore the order, for every object a program can hold: assigning `d1` or `d2` a
Quantity convertible to years is accepted, and then is the timescale, next to the old other one, so the
order holds afterwards if and only if it holds for these two; every other call, and every refused assignment, leaves both timescales as they were. -/
theorem C13_step [DecidableEq α] (R : Registry N α) {m : IRM N α} (hm : IRM.Reachable R m) :
    (∀ q, Convertible R q R.yr → (IRM.call R (.setD1 (.qty q)) m).2 = .ok () ∧
      (IRM.call R (.setD1 (.qty q)) m).1.d1 = q ∧ (IRM.call R (.setD1 (.qty q)) m).1.d2 = m.d2) ∧
    (∀ q, Convertible R q R.yr → (IRM.call R (.setD2 (.qty q)) m).2 = .ok () ∧
      (IRM.call R (.setD2 (.qty q)) m).1.d1 = m.d1 ∧ (IRM.call R (.setD2 (.qty q)) m).1.d2 = q) ∧
    (∀ op, (∀ q, op = .setD1 (.qty q) ∨ op = .setD2 (.qty q) → ¬ Convertible R q R.yr) →
      (IRM.call R op m).1.d1 = m.d1 ∧ (IRM.call R op m).1.d2 = m.d2) := by
  refine ⟨fun q hq => ?_, fun q hq => ?_, fun op hop => ?_⟩
  · have := checkQty_good (name := "d1") (convertible_iff.mp hq)
    simp only [IRM.call, IRM.setD1, Py.bind_apply, Py.lift_apply, this, Py.modify_apply]
    simp
  · have := checkQty_good (name := "d2") (convertible_iff.mp hq)
    simp only [IRM.call, IRM.setD2, Py.bind_apply, Py.lift_apply, this, Py.modify_apply]
    simp
  · have hl := (IRM.Reachable.coherent R hm).lens
    cases op with
    | setD1 v =>
      cases v with
      | bare => exact ⟨rfl, rfl⟩
      | qty q =>
        have := hop q (.inl rfl)
        rw [convertible_iff] at this
        simp only [IRM.call, IRM.setD1, Py.bind_apply, Py.lift_apply, checkQty_bad this]
        simp
    | setD2 v =>
      cases v with
      | bare => exact ⟨rfl, rfl⟩
      | qty q =>
        have := hop q (.inr rfl)
        rw [convertible_iff] at this
        simp only [IRM.call, IRM.setD2, Py.bind_apply, Py.lift_apply, checkQty_bad this]
        simp
    | setQ1 v => have := IRM.keeps R (.setQ1 v) trivial m.d1 m.d2 m ⟨rfl, rfl, hl⟩; exact ⟨this.1, this.2.1⟩
    | setQ2 v => have := IRM.keeps R (.setQ2 v) trivial m.d1 m.d2 m ⟨rfl, rfl, hl⟩; exact ⟨this.1, this.2.1⟩
    | setEfficacy v => have := IRM.keeps R (.setEfficacy v) trivial m.d1 m.d2 m ⟨rfl, rfl, hl⟩; exact ⟨this.1, this.2.1⟩
    | setDeltaT v => have := IRM.keeps R (.setDeltaT v) trivial m.d1 m.d2 m ⟨rfl, rfl, hl⟩; exact ⟨this.1, this.2.1⟩
    | setErf v => have := IRM.keeps R (.setErf v) trivial m.d1 m.d2 m ⟨rfl, rfl, hl⟩; exact ⟨this.1, this.2.1⟩
    | setDrivers v => have := IRM.keeps R (.setDrivers v) trivial m.d1 m.d2 m ⟨rfl, rfl, hl⟩; exact ⟨this.1, this.2.1⟩
    | reset => have := IRM.keeps R .reset trivial m.d1 m.d2 m ⟨rfl, rfl, hl⟩; exact ⟨this.1, this.2.1⟩
    | step => have := IRM.keeps R .step trivial m.d1 m.d2 m ⟨rfl, rfl, hl⟩; exact ⟨this.1, this.2.1⟩
    | run => have := IRM.keeps R .run trivial m.d1 m.d2 m ⟨rfl, rfl, hl⟩; exact ⟨this.1, this.2.1⟩
    | runScenarios dv scen =>
      have := IRM.keeps R (.runScenarios dv scen) trivial m.d1 m.d2 m ⟨rfl, rfl, hl⟩; exact ⟨this.1, this.2.1⟩

/-! ## C14 set_drivers contract -/

/-- dimensions of a driver argument -/
def DArg.ndim : DArg N α → Nat
  | .bare a => a.ndim
  | .qty a _ => a.ndim

theorem C14_two_layer (R : Registry N α) (m : TLM N α) :
    (∀ d : DArg N α, d.ndim ≠ 1 → TLM.setDrivers R d m = (m, .error (.assertion "erf must be one-dimensional"))) ∧
    (∀ vals, TLM.setDrivers R (.bare ⟨1, vals⟩) m = (m, .error (.typeError "erf"))) ∧
    (∀ vals u, ¬ Convertible R ⟨Arith.ofNat 1, u⟩ R.wm2 →
      TLM.setDrivers R (.qty ⟨1, vals⟩ u) m = (m, .error (.unitError "erf"))) ∧
    (∀ vals u, Convertible R ⟨Arith.ofNat 1, u⟩ R.wm2 →
      ∃ m', TLM.setDrivers R (.qty ⟨1, vals⟩ u) m = (m', .ok ()) ∧ m'.core.erf = .set vals u ∧ m'.pub = m.pub ∧
        m'.outputs = m.outputs ∧ m'.idx = m.idx) := by
  refine ⟨?_, ?_, ?_, ?_⟩
  · intro d hd
    cases d <;> simp [DArg.ndim] at hd <;> simp [TLM.setDrivers, Py.onCore, Core.setDrivers, hd]
  · intro vals
    simp [TLM.setDrivers, Py.onCore, Core.setDrivers, Core.setErf]
  · intro vals u hu
    rw [convertible_iff] at hu
    have hu' : ¬ (u = R.wm2 ∨ R.compat u R.wm2 = true) := hu
    simp [TLM.setDrivers, Py.onCore, Core.setDrivers, Core.setErf, hu']
  · intro vals u hu
    rw [convertible_iff] at hu
    exact ⟨_, TLM.setDrivers_good R m hu, rfl, rfl, rfl, rfl⟩

theorem C14_impulse_response (R : Registry N α) (m : IRM N α) :
    (∀ d : DArg N α, d.ndim ≠ 1 → IRM.setDrivers R d m = (m, .error (.assertion "erf must be one-dimensional"))) ∧
    (∀ vals, IRM.setDrivers R (.bare ⟨1, vals⟩) m = (m, .error (.typeError "erf"))) ∧
    (∀ vals u, ¬ Convertible R ⟨Arith.ofNat 1, u⟩ R.wm2 →
      IRM.setDrivers R (.qty ⟨1, vals⟩ u) m = (m, .error (.unitError "erf"))) ∧
    (∀ vals u, Convertible R ⟨Arith.ofNat 1, u⟩ R.wm2 →
      ∃ m', IRM.setDrivers R (.qty ⟨1, vals⟩ u) m = (m', .ok ()) ∧ m'.core.erf = .set vals u ∧ m'.pub = m.pub ∧
        m'.outputs = m.outputs ∧ m'.idx = m.idx) := by
  refine ⟨?_, ?_, ?_, ?_⟩
  · intro d hd
    cases d <;> simp [DArg.ndim] at hd <;> simp [IRM.setDrivers, Py.onCore, Core.setDrivers, hd]
  · intro vals
    simp [IRM.setDrivers, Py.onCore, Core.setDrivers, Core.setErf]
  · intro vals u hu
    rw [convertible_iff] at hu
    have hu' : ¬ (u = R.wm2 ∨ R.compat u R.wm2 = true) := hu
    simp [IRM.setDrivers, Py.onCore, Core.setDrivers, Core.setErf, hu']
  · intro vals u hu
    rw [convertible_iff] at hu
    exact ⟨_, IRM.setDrivers_good R m hu, rfl, rfl, rfl, rfl⟩

/-! ## Histories meeting the hypotheses of C09 and C10 -/

/-- A history with a failing call: default object, `lambda0 = 5 (not a Quantity)` raises, the drivers are set and a
run is made; its public parameters equal those of the fresh default object. -/
example : ∃ m₁ m₂ : TLM U0 XR, TLM.Reachable U0.reg m₁ ∧ TLM.Reachable U0.reg m₂ ∧ m₁.pub = m₂.pub ∧
    m₁.core.erf ≠ m₂.core.erf := by
  obtain ⟨m, h1, h2⟩ := TLM.default_exists U0.lawful
  refine ⟨TLM.after U0.reg m [.setLambda0 .bare, .setDrivers (exDrivers U0.reg)], m, ⟨_, m, _, h1, rfl⟩, ⟨_, m, [], h1, rfl⟩,
    ?_, ?_⟩
  · simp only [TLM.after, List.foldl, TLM.call]
    rw [((C11_two_layer U0.lawful.toDimensional).2.2.1).bare m]
    rw [exDrivers, TLM.setDrivers_good U0.reg m (Or.inl rfl)]
    rfl
  · simp only [TLM.after, List.foldl, TLM.call]
    rw [((C11_two_layer U0.lawful.toDimensional).2.2.1).bare m]
    rw [exDrivers, TLM.setDrivers_good U0.reg m (Or.inl rfl)]
    obtain ⟨_, _, _, _, _, _, _, -, -, hu⟩ := C12_two_layer U0.lawful.toDimensional _ _ h1
    rw [hu]
    simp

end TwoLayer
