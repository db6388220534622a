import Verif.Proofs.InterruptTorn
import Verif.Props.TwoLayer
import Verif.Props.ImpulseResponse

/-!
# C116: interrupted calls

`callT`, `afterI`, `IsRun`, `IsRunOrScenarios`, `IsSetter`, `setAll`, `SameRuns` are in `Spec/Interrupt.lean`; `Tr.cut` (the
object left behind by an interrupt after `k` assignments) in `Model/Interrupt.lean`.  Nothing is assumed of the object: it may
itself have been left behind by interrupted calls.
-/

set_option linter.unusedSimpArgs false
set_option linter.unusedSectionVars false

namespace TwoLayer
variable {N α : Type} [Fintype N] [DecidableEq N] [Arith α] [DecidableEq α]

/-! ## two-layer -/

/-- **C116** (two-layer).  Without an interrupt, the calls written out assignment by assignment are the calls of the model; an
interrupt before the first assignment leaves the object as it was, one after the last leaves what the call leaves. -/
theorem C116_two_layer_whole (R : Registry N α) (op : TLM.Op N α) (m : TLM N α) :
    ((TLM.callT R op).exec m).2 = TLM.call R op m ∧ (TLM.callT R op).cut 0 m = m ∧
      ∀ k, ((TLM.callT R op).exec m).1.length ≤ k → (TLM.callT R op).cut k m = (TLM.call R op m).1 := by
  have hw : ((TLM.callT R op).exec m).2 = TLM.call R op m := congrFun (TLM.whole_call R op) m
  refine ⟨hw, rfl, fun k hk => ?_⟩
  rw [← hw]
  exact (TLM.callT_ends R op).cut hk

/-- **C116** (two-layer, running).  After any number of `set_drivers`, `reset`, `step`, `run`, each gone through, raised or
interrupted at any point: the parameters are what they were, and `set_drivers`, `reset`, `run` does exactly what it would have
done on the object before. -/
theorem C116_two_layer_run (R : Registry N α) (m : TLM N α) (h : List (TLM.Op N α × Option Nat)) (hh : ∀ e ∈ h, e.1.IsRun) :
    (TLM.afterI R m h).pub = m.pub ∧ ∀ d,
      (TLM.simulate R d (TLM.afterI R m h)).2 = (TLM.simulate R d m).2 ∧
      ((TLM.simulate R d m).2 = .ok () → (TLM.simulate R d (TLM.afterI R m h)).1 = (TLM.simulate R d m).1) := by
  have hu := TLM.afterI_keeps R (fun op hop => TLM.callT_keeps R hop) h hh m
  refine ⟨?_, fun d => ?_⟩
  · have : (TLM.used (TLM.afterI R m h)).pub = (TLM.used m).pub := by rw [hu]
    exact this
  · obtain ⟨h1, h2⟩ := TLM.simulate_used R hu d
    exact ⟨h1, fun ho => h2 (h1.trans ho)⟩

/-- **C116** (two-layer, restart).  After any number of `reset`, `step`, `run`, each gone through, raised or interrupted at any
point, the drivers are what they were, and `reset`, `run` does exactly what it would have done on the object before. -/
theorem C116_two_layer_restart (R : Registry N α) (m : TLM N α) (h : List (TLM.Op N α × Option Nat))
    (hh : ∀ e ∈ h, e.1 = .reset ∨ e.1 = .step ∨ e.1 = .run) :
    (TLM.afterI R m h).core.erf = m.core.erf ∧
    ((do TLM.reset; TLM.run : Py (TLM N α) Unit) (TLM.afterI R m h)).2 = ((do TLM.reset; TLM.run : Py (TLM N α) Unit) m).2 ∧
    (((do TLM.reset; TLM.run : Py (TLM N α) Unit) m).2 = .ok () →
      ((do TLM.reset; TLM.run : Py (TLM N α) Unit) (TLM.afterI R m h)).1 = ((do TLM.reset; TLM.run : Py (TLM N α) Unit) m).1) := by
  have hu := TLM.afterI_keeps R (f := TLM.cleared) (P := fun op => op = .reset ∨ op = .step ∨ op = .run)
    (fun op hop => TLM.callT_keeps_cleared R hop) h hh m
  obtain ⟨h1, h2⟩ := TLM.restart_cleared hu
  refine ⟨?_, h1, fun ho => h2 (h1.trans ho)⟩
  have : (TLM.cleared (TLM.afterI R m h)).core.erf = (TLM.cleared m).core.erf := by rw [hu]
  exact this

/-- **C116** (two-layer, `run_scenarios`).  After any number of `run_scenarios`, assignments of `delta_t`, `set_drivers`, `reset`,
`step`, `run`, each gone through, raised or interrupted at any point: every parameter but `delta_t` is what it was, and
`run_scenarios` returns or raises exactly what it would have returned or raised on the object before. -/
theorem C116_two_layer_scenarios {R : Registry N α} (D : R.Dimensional) (m : TLM N α) (h : List (TLM.Op N α × Option Nat))
    (hh : ∀ e ∈ h, e.1.IsRunOrScenarios) :
    { (TLM.afterI R m h).pub with deltaT := m.pub.deltaT } = m.pub ∧ ∀ dv scen,
      (runScenarios (TLM.variant R) R dv scen (TLM.afterI R m h)).2 = (runScenarios (TLM.variant R) R dv scen m).2 := by
  have hu := TLM.afterI_keeps R (fun op hop => TLM.callT_keeps_noDt R hop) h hh m
  refine ⟨?_, fun dv scen => TLM.runScenarios_used D hu dv scen⟩
  have := congrArg (fun k : TLM N α => { k.pub with deltaT := m.pub.deltaT }) hu
  exact this

/-- **C116** (two-layer, repair).  Whatever calls were interrupted wherever, assignments included: once all parameters have been
assigned, the object simulates exactly as a new object constructed with these arguments. -/
theorem C116_two_layer_repair {R : Registry N α} (D : R.Dimensional) (m : TLM N α) (h : List (TLM.Op N α × Option Nat)) {x : TLM.Args N α}
    {m₀ : TLM N α} (hx : TLM.init R x = .ok m₀) :
    ∃ m', TLM.setAll R x (TLM.afterI R m h) = (m', .ok ()) ∧ ∀ d,
      (TLM.simulate R d m').2 = (TLM.simulate R d m₀).2 ∧
      ((TLM.simulate R d m₀).2 = .ok () → (TLM.simulate R d m').1 = (TLM.simulate R d m₀).1) := by
  obtain ⟨m', h1, h2⟩ := TLM.setAll_ok D hx (TLM.afterI R m h)
  refine ⟨m', h1, fun d => ?_⟩
  obtain ⟨h3, h4⟩ := TLM.simulate_used R h2 d
  exact ⟨h3, fun ho => h4 (h3.trans ho)⟩

/-- **C116** (two-layer, assignments).  An assignment of a parameter interrupted at any point: the parameters read as before or as
after the whole assignment, and every simulation does what it would have done before, or every simulation does what it would do after. -/
theorem C116_two_layer_setter (R : Registry N α) {op : TLM.Op N α} (hop : op.IsSetter) (k : Nat) (m : TLM N α) :
    (((TLM.callT R op).cut k m).pub = m.pub ∨ ((TLM.callT R op).cut k m).pub = (TLM.call R op m).1.pub) ∧
      (TLM.SameRuns R ((TLM.callT R op).cut k m) m ∨ TLM.SameRuns R ((TLM.callT R op).cut k m) (TLM.call R op m).1) :=
  TLM.callT_setter R hop k m

/-- **C116** (two-layer, assigning again).  An assignment of a parameter or of the drivers interrupted at any point, followed by an
assignment of the same attribute that goes through, leaves exactly the object the second assignment alone leaves. -/
theorem C116_two_layer_again (R : Registry N α) {op op' : TLM.Op N α} (ht : op.target = op'.target) (hs : op.target ≠ none)
    (k : Nat) (m : TLM N α) (h : (TLM.call R op' m).2 = .ok ()) :
    TLM.call R op' ((TLM.callT R op).cut k m) = TLM.call R op' m :=
  TLM.call_again R ht hs k m h

/-- The two choices are independent: `TwoLayerModel().du = 100 m`, interrupted after its first assignment, leaves an object
that reads 100 m, simulates with 50 m, and not with 100 m. -/
theorem C116_two_layer_torn : ∃ m t : TLM U0 XR, TLM.init U0.reg (TLM.defaultArgs U0.reg) = .ok m ∧
    t = (TLM.callT U0.reg (.setDu (.qty ⟨.fin 100, U0.reg.m⟩))).cut 1 m ∧
    t.pub = (TLM.call U0.reg (.setDu (.qty ⟨.fin 100, U0.reg.m⟩)) m).1.pub ∧ t.du = ⟨.fin 100, U0.reg.m⟩ ∧
    TLM.SameRuns U0.reg t m ∧
    ¬ TLM.SameRuns U0.reg t (TLM.call U0.reg (.setDu (.qty ⟨.fin 100, U0.reg.m⟩)) m).1 := by
  obtain ⟨m, h1, h2⟩ := TLM.default_exists U0.lawful
  have hc : checkQty U0.reg (.qty (⟨.fin 100, U0.reg.m⟩ : Qty U0 XR)) "du" U0.reg.m = .ok ⟨.fin 100, U0.reg.m⟩ :=
    checkQty_ok.mpr ⟨rfl, Or.inl rfl⟩
  have ht : (TLM.callT U0.reg (.setDu (.qty ⟨.fin 100, U0.reg.m⟩))).cut 1 m = { m with du := ⟨.fin 100, U0.reg.m⟩ } := by
    simp only [TLM.callT, TLM.setDuT, hc]
    rfl
  have hs := TLM.setDu_ok U0.reg U0.lawful.toDimensional (q := ⟨.fin 100, U0.reg.m⟩) (Or.inl rfl) m
  have hsame : TLM.SameRuns U0.reg ({ m with du := ⟨.fin 100, U0.reg.m⟩ } : TLM U0 XR) m :=
    TLM.sameRuns_of_eng U0.reg rfl
  refine ⟨m, _, h1, ht.symm, ?_, rfl, hsame, fun hn => ?_⟩
  · simp only [TLM.call, hs]; rfl
  · have hr : TLM.Reachable U0.reg m := ⟨_, m, [], h1, rfl⟩
    set m' := (TLM.call U0.reg (.setDu (.qty ⟨.fin 100, U0.reg.m⟩)) m).1 with hm'
    have hr' : TLM.Reachable U0.reg m' := ⟨_, m, [.setDu (.qty ⟨.fin 100, U0.reg.m⟩)], h1, rfl⟩
    let p' : TLPar := { TLPar.default with C := 100 * (1000 * 4181) }
    have hp' : m'.Phys U0.reg p' := by
      have e : m' = _ := congrArg Prod.fst hs
      rw [e]
      refine ⟨?_, h2.dl, h2.lambda0, h2.a, h2.efficacy, h2.eta, h2.dt⟩
      have := isNum_self (R := U0.reg) 100 U0.reg.m
      simpa [p'] using this
    have hok' : p'.Ok := by constructor <;> norm_num [p', TLPar.default]
    have hF := exDrivers_forcing (R := U0.reg)
    obtain ⟨a, ha, oa⟩ := TLM.produces_sol U0.lawful (TLM.Reachable.coherent _ U0.lawful.toDimensional hr) h2 TLPar.default_ok
      (by norm_num) hF
    obtain ⟨b, hb, ob⟩ := TLM.produces_sol U0.lawful (TLM.Reachable.coherent _ U0.lawful.toDimensional hr') hp' hok'
      (by norm_num) hF
    obtain ⟨c1, c2⟩ := hsame (exDrivers U0.reg)
    obtain ⟨d1, d2⟩ := hn (exDrivers U0.reg)
    rw [ha] at c1 c2
    rw [hb] at d1 d2
    have e1 := c2 c1
    have e2 := d2 d1
    rw [e1] at e2
    simp only at e2
    rw [oa, ob] at e2
    simp only [List.cons.injEq, Prod.mk.injEq, true_and, and_true] at e2
    have := series_inj.mp e2.1 1 (by norm_num)
    norm_num [TLPar.T, TLPar.sol, TLPar.default, p'] at this

/-- Concrete case: drivers set, `reset`, and `run` interrupted in its first step; the object left behind is in the middle of a run,
and a simulation that succeeds on the default object succeeds on it. -/
example : ∃ m : TLM U0 XR, TLM.init U0.reg (TLM.defaultArgs U0.reg) = .ok m ∧
    (∀ e ∈ ([(.setDrivers (exDrivers U0.reg), none), (.reset, none), (.run, some 2)] : List (TLM.Op U0 XR × Option Nat)), e.1.IsRun) ∧
    (TLM.afterI U0.reg m [(.setDrivers (exDrivers U0.reg), none), (.reset, none), (.run, some 2)]).idx = some 0 ∧
    (TLM.simulate U0.reg (exDrivers U0.reg) m).2 = .ok () ∧
    (TLM.simulate U0.reg (exDrivers U0.reg)
      (TLM.afterI U0.reg m [(.setDrivers (exDrivers U0.reg), none), (.reset, none), (.run, some 2)])).2 = .ok () := by
  obtain ⟨m, h1, h2⟩ := TLM.default_exists U0.lawful
  have hr : TLM.Reachable U0.reg m := ⟨_, m, [], h1, rfl⟩
  have hi : ∀ e ∈ ([(.setDrivers (exDrivers U0.reg), none), (.reset, none), (.run, some 2)] : List (TLM.Op U0 XR × Option Nat)),
      e.1.IsRun := by
    intro e he
    simp only [List.mem_cons, List.not_mem_nil, or_false] at he
    rcases he with rfl | rfl | rfl <;> exact trivial
  obtain ⟨m', hm', -⟩ := TLM.produces_sol U0.lawful (TLM.init_coherent _ h1) h2 TLPar.default_ok (by norm_num) (exDrivers_forcing (R := U0.reg))
  have hok : (TLM.simulate U0.reg (exDrivers U0.reg) m).2 = .ok () := by rw [hm']
  refine ⟨m, h1, hi, ?_, hok, ((C116_two_layer_run U0.reg m _ hi).2 _).1.trans hok⟩
  simp only [TLM.afterI, List.foldl, TLM.call]
  rw [exDrivers, TLM.setDrivers_good U0.reg m (Or.inl rfl)]
  simp only
  rw [TLM.reset_set _ (vals := [.fin 1, .fin 2, .fin 3]) (u := U0.reg.wm2) rfl rfl]
  · rfl
  · simp [XR.isNaN_fin]

/-- Concrete case for `C116_two_layer_again` and `_setter`: two assignments of `efficacy`. -/
example : (TLM.Op.setEfficacy (.qty ⟨.fin 2, U0.reg.one⟩) : TLM.Op U0 XR).IsSetter ∧
    (TLM.Op.setEfficacy (.qty ⟨.fin 2, U0.reg.one⟩) : TLM.Op U0 XR).target =
      (TLM.Op.setEfficacy (.qty ⟨.fin 3, U0.reg.one⟩) : TLM.Op U0 XR).target ∧
    ∃ m : TLM U0 XR, TLM.init U0.reg (TLM.defaultArgs U0.reg) = .ok m ∧
      (TLM.call U0.reg (.setEfficacy (.qty ⟨.fin 3, U0.reg.one⟩)) m).2 = .ok () := by
  obtain ⟨m, h1, -⟩ := TLM.default_exists U0.lawful
  refine ⟨trivial, rfl, m, h1, ?_⟩
  simp only [TLM.call, TLM.setEfficacy, Py.bind_apply, Py.lift_apply,
    checkQty_good (R := U0.reg) (q := ⟨.fin 3, U0.reg.one⟩) (u := U0.reg.one) (Or.inl rfl), Py.modify_apply]

/-! ## impulse response -/

/-- **C116** (impulse response).  Without an interrupt, the calls written out assignment by assignment are the calls of the model; an
interrupt before the first assignment leaves the object as it was, one after the last leaves what the call leaves. -/
theorem C116_impulse_response_whole (R : Registry N α) (op : IRM.Op N α) (m : IRM N α) :
    ((IRM.callT R op).exec m).2 = IRM.call R op m ∧ (IRM.callT R op).cut 0 m = m ∧
      ∀ k, ((IRM.callT R op).exec m).1.length ≤ k → (IRM.callT R op).cut k m = (IRM.call R op m).1 := by
  have hw : ((IRM.callT R op).exec m).2 = IRM.call R op m := congrFun (IRM.whole_call R op) m
  refine ⟨hw, rfl, fun k hk => ?_⟩
  rw [← hw]
  exact (IRM.callT_ends R op).cut hk

/-- **C116** (impulse response, running).  After any number of `set_drivers`, `reset`, `step`, `run`, each gone through, raised or
interrupted at any point: the parameters are what they were, and `set_drivers`, `reset`, `run` does exactly what it would have
done on the object before. -/
theorem C116_impulse_response_run (R : Registry N α) (m : IRM N α) (h : List (IRM.Op N α × Option Nat)) (hh : ∀ e ∈ h, e.1.IsRun) :
    (IRM.afterI R m h).pub = m.pub ∧ ∀ d,
      (IRM.simulate R d (IRM.afterI R m h)).2 = (IRM.simulate R d m).2 ∧
      ((IRM.simulate R d m).2 = .ok () → (IRM.simulate R d (IRM.afterI R m h)).1 = (IRM.simulate R d m).1) := by
  have hu := IRM.afterI_keeps R (fun op hop => IRM.callT_keeps R hop) h hh m
  refine ⟨?_, fun d => ?_⟩
  · have : (IRM.used (IRM.afterI R m h)).pub = (IRM.used m).pub := by rw [hu]
    exact this
  · obtain ⟨h1, h2⟩ := IRM.simulate_used R hu d
    exact ⟨h1, fun ho => h2 (h1.trans ho)⟩

/-- **C116** (impulse response, restart).  After any number of `reset`, `step`, `run`, each gone through, raised or interrupted at any
point, the drivers are what they were, and `reset`, `run` does exactly what it would have done on the object before. -/
theorem C116_impulse_response_restart (R : Registry N α) (m : IRM N α) (h : List (IRM.Op N α × Option Nat))
    (hh : ∀ e ∈ h, e.1 = .reset ∨ e.1 = .step ∨ e.1 = .run) :
    (IRM.afterI R m h).core.erf = m.core.erf ∧
    ((do IRM.reset; IRM.run R : Py (IRM N α) Unit) (IRM.afterI R m h)).2 = ((do IRM.reset; IRM.run R : Py (IRM N α) Unit) m).2 ∧
    (((do IRM.reset; IRM.run R : Py (IRM N α) Unit) m).2 = .ok () →
      ((do IRM.reset; IRM.run R : Py (IRM N α) Unit) (IRM.afterI R m h)).1 = ((do IRM.reset; IRM.run R : Py (IRM N α) Unit) m).1) := by
  have hu := IRM.afterI_keeps R (f := IRM.cleared) (P := fun op => op = .reset ∨ op = .step ∨ op = .run)
    (fun op hop => IRM.callT_keeps_cleared R hop) h hh m
  obtain ⟨h1, h2⟩ := IRM.restart_cleared R hu
  refine ⟨?_, h1, fun ho => h2 (h1.trans ho)⟩
  have : (IRM.cleared (IRM.afterI R m h)).core.erf = (IRM.cleared m).core.erf := by rw [hu]
  exact this

/-- **C116** (impulse response, `run_scenarios`).  After any number of `run_scenarios`, assignments of `delta_t`, `set_drivers`, `reset`,
`step`, `run`, each gone through, raised or interrupted at any point: every parameter but `delta_t` is what it was, and
`run_scenarios` returns or raises exactly what it would have returned or raised on the object before. -/
theorem C116_impulse_response_scenarios {R : Registry N α} (D : R.Dimensional) (m : IRM N α) (h : List (IRM.Op N α × Option Nat))
    (hh : ∀ e ∈ h, e.1.IsRunOrScenarios) :
    { (IRM.afterI R m h).pub with deltaT := m.pub.deltaT } = m.pub ∧ ∀ dv scen,
      (runScenarios (IRM.variant R) R dv scen (IRM.afterI R m h)).2 = (runScenarios (IRM.variant R) R dv scen m).2 := by
  have hu := IRM.afterI_keeps R (fun op hop => IRM.callT_keeps_noDt R hop) h hh m
  refine ⟨?_, fun dv scen => IRM.runScenarios_used D hu dv scen⟩
  have := congrArg (fun k : IRM N α => { k.pub with deltaT := m.pub.deltaT }) hu
  exact this

/-- **C116** (impulse response, repair).  Whatever calls were interrupted wherever, assignments included: once all parameters have been
assigned, the object simulates exactly as a new object constructed with these arguments. -/
theorem C116_impulse_response_repair {R : Registry N α} (m : IRM N α) (h : List (IRM.Op N α × Option Nat)) {x : IRM.Args N α}
    {m₀ : IRM N α} (hx : IRM.init R x = .ok m₀) :
    ∃ m', IRM.setAll R x (IRM.afterI R m h) = (m', .ok ()) ∧ ∀ d,
      (IRM.simulate R d m').2 = (IRM.simulate R d m₀).2 ∧
      ((IRM.simulate R d m₀).2 = .ok () → (IRM.simulate R d m').1 = (IRM.simulate R d m₀).1) := by
  obtain ⟨m', h1, h2⟩ := IRM.setAll_ok hx (IRM.afterI R m h)
  refine ⟨m', h1, fun d => ?_⟩
  obtain ⟨h3, h4⟩ := IRM.simulate_used R h2 d
  exact ⟨h3, fun ho => h4 (h3.trans ho)⟩

/-- **C116** (impulse response, assignments).  An assignment of a parameter interrupted at any point: the parameters read as before or as
after the whole assignment, and every simulation that goes through reports the temperatures it would have reported before, or every one those it would report after; the heat uptake may be neither: `C116_impulse_response_torn`. -/
theorem C116_impulse_response_setter (R : Registry N α) {op : IRM.Op N α} (hop : op.IsSetter) (k : Nat) (m : IRM N α) :
    (((IRM.callT R op).cut k m).pub = m.pub ∨ ((IRM.callT R op).cut k m).pub = (IRM.call R op m).1.pub) ∧
      (IRM.SameTemps R ((IRM.callT R op).cut k m) m ∨ IRM.SameTemps R ((IRM.callT R op).cut k m) (IRM.call R op m).1) :=
  IRM.callT_setter R hop k m

/-- **C116** (impulse response, assigning again).  An assignment of a parameter or of the drivers interrupted at any point, followed by an
assignment of the same attribute that goes through, leaves exactly the object the second assignment alone leaves. -/
theorem C116_impulse_response_again (R : Registry N α) {op op' : IRM.Op N α} (ht : op.target = op'.target) (hs : op.target ≠ none)
    (k : Nat) (m : IRM N α) (h : (IRM.call R op' m).2 = .ok ()) :
    IRM.call R op' ((IRM.callT R op).cut k m) = IRM.call R op' m :=
  IRM.call_again R ht hs k m h

/-- What the temperatures of `C116_impulse_response_setter` leave open.  `q1 = q`, interrupted after its first assignment: the
object reads the new `q1`, a simulation reports the temperatures of the old `q1`, and computes heat uptake from them with the
feedback, heat exchange and heat capacities of the new `q1`. -/
theorem C116_impulse_response_torn {N : Type} [Fintype N] [DecidableEq N] {R : Registry N XR} (L : R.Lawful) {m : IRM N XR}
    (hm : IRM.Reachable R m) {p : IRPar} (hp : m.Phys R p) (hok : p.Boxes) {q : Qty N XR} {x κ : ℝ} (hx : 0 < x)
    (hq : IsNum R q R.cwm2 x) (hκ : IsNum R ⟨.fin 1, q.unit⟩ R.cwm2 κ) {d : DArg N XR} {n : ℕ} (hn : n ≠ 0) {F : ℕ → ℝ}
    (hd : IsForcing R d n F) (hu : IRM.UnitsOk R m p.e ∨ n ≤ 1) :
    ((IRM.callT R (.setQ1 (.qty q))).cut 1 m).q1 = q ∧ ∃ T1 T2 U,
      IRM.Produces R ((IRM.callT R (.setQ1 (.qty q))).cut 1 m) d n T1 T2 U ∧
      BoxEq p.q1 p.d1 p.dt n F T1 ∧ BoxEq p.q2 p.d2 p.dt n F T2 ∧ IRUptakeEq { p with q1 := x } κ n F T1 T2 U := by
  have hc : checkQty R (.qty q) "q1" R.cwm2 = .ok q :=
    checkQty_ok.mpr ⟨rfl, (L.unitOk_iff _ _).mpr (L.isNum_iff.mp hq).2⟩
  have ht : (IRM.callT R (.setQ1 (.qty q))).cut 1 m = { m with q1 := q } := by
    simp only [IRM.callT, IRM.setQ1T, hc]
    rfl
  rw [ht]
  exact ⟨rfl, _, _, _, IRM.torn_q1 L (IRM.Reachable.coherent R hm) hp hok hx hq hκ hn hd hu, boxSol_eq _ _ _ _ _,
    boxSol_eq _ _ _ _ _, fun _ => rfl, fun _ _ => rfl⟩

/-- Concrete case: `ImpulseResponseModel().q1 = 0.6`, interrupted after its first assignment.  Driven by `[1, 2, 3] W/m²`, the object
reports the temperatures of `q1 = 0.3`, and a heat uptake that is neither that of `q1 = 0.3` nor that of `q1 = 0.6`. -/
theorem C116_impulse_response_mixed : ∃ m t : IRM U0 XR, IRM.init U0.reg (IRM.defaultArgs U0.reg) = .ok m ∧
    t = (IRM.callT U0.reg (.setQ1 (.qty ⟨.fin 0.6, U0.reg.cwm2⟩))).cut 1 m ∧
    ∃ T1 T2 U T1' T2' U' V, IRM.Produces U0.reg m (exDrivers U0.reg) 3 T1 T2 U ∧
      IRM.Produces U0.reg (IRM.call U0.reg (.setQ1 (.qty ⟨.fin 0.6, U0.reg.cwm2⟩)) m).1 (exDrivers U0.reg) 3 T1' T2' U' ∧
      IRM.Produces U0.reg t (exDrivers U0.reg) 3 T1 T2 V ∧ V 2 ≠ U 2 ∧ V 2 ≠ U' 2 := by
  obtain ⟨m, h1, h2, h3, h4, h5⟩ := IRM.default_exists U0.lawful
  have hc : checkQty U0.reg (.qty (⟨.fin 0.6, U0.reg.cwm2⟩ : Qty U0 XR)) "q1" U0.reg.cwm2 = .ok ⟨.fin 0.6, U0.reg.cwm2⟩ :=
    checkQty_ok.mpr ⟨rfl, Or.inl rfl⟩
  have ht : (IRM.callT U0.reg (.setQ1 (.qty ⟨.fin 0.6, U0.reg.cwm2⟩))).cut 1 m = { m with q1 := ⟨.fin 0.6, U0.reg.cwm2⟩ } := by
    simp only [IRM.callT, IRM.setQ1T, hc]
    rfl
  have hs : IRM.call U0.reg (.setQ1 (.qty ⟨.fin 0.6, U0.reg.cwm2⟩)) m = (({ m with
      q1 := ⟨.fin 0.6, U0.reg.cwm2⟩, q1Mag := (⟨.fin 0.6, U0.reg.cwm2⟩ : Qty U0 XR).magIn U0.reg U0.reg.cwm2 } : IRM U0 XR), .ok ()) := by
    simp only [IRM.call, IRM.setQ1, Py.bind_apply, Py.lift_apply, hc, Py.modify_apply]
  have hr : IRM.Reachable U0.reg m := ⟨_, m, [], h1, rfl⟩
  have hr' : IRM.Reachable U0.reg (IRM.call U0.reg (.setQ1 (.qty ⟨.fin 0.6, U0.reg.cwm2⟩)) m).1 :=
    ⟨_, m, [.setQ1 (.qty ⟨.fin 0.6, U0.reg.cwm2⟩)], h1, rfl⟩
  have hF := exDrivers_forcing (R := U0.reg)
  have k1 : IsNum U0.reg ⟨.fin 1, U0.reg.cwm2⟩ U0.reg.cwm2 1 := isNum_self _ _
  have hq : IsNum U0.reg ⟨.fin 0.6, U0.reg.cwm2⟩ U0.reg.cwm2 0.6 := isNum_self _ _
  have A := IRM.produces_sol U0.lawful (IRM.Reachable.coherent _ hr) h2 IRPar.default_ok (κ := 1) (by rw [h3]; exact k1)
    (by norm_num) hF (Or.inl (Or.inl rfl))
  have B := IRM.produces_sol' U0.lawful (p := { IRPar.default with q1 := 0.6 }) (κ := 1)
    (IRM.Reachable.coherent _ hr') (by rw [hs]; exact ⟨hq, h2.q2, h2.d1, h2.d2, h2.efficacy, h2.dt⟩)
    (by constructor <;> norm_num [IRPar.default]) (by rw [hs]; exact k1) (by norm_num) hF (Or.inl (Or.inl rfl))
  have C := IRM.torn_q1 U0.lawful (IRM.Reachable.coherent _ hr) h2 IRPar.default_ok.boxes (by norm_num) hq k1 (by norm_num) hF
    (Or.inl (Or.inl rfl))
  refine ⟨m, _, h1, rfl, _, _, _, _, _, _, _, A, B, by rw [ht]; exact C, ?_, ?_⟩
  · have e1 : Real.exp (-(1 / 108)) < 1 := Real.exp_lt_one_iff.mpr (by norm_num)
    have e2 : Real.exp (-(1 / 4800)) < 1 := Real.exp_lt_one_iff.mpr (by norm_num)
    norm_num [IRPar.Umix, IRPar.U, IRPar.uptake, IRPar.T1, IRPar.T2, boxSol, IRPar.default, IRPar.l, Geo.invL]
    intro h
    linarith
  · have e1 : Real.exp (-(1 / 108)) < 1 := Real.exp_lt_one_iff.mpr (by norm_num)
    norm_num [IRPar.Umix, IRPar.U, IRPar.uptake, IRPar.T1, IRPar.T2, boxSol, IRPar.default, IRPar.l, Geo.invL]
    intro h
    linarith

/-- Concrete case: drivers set, `reset`, and `run` interrupted in its first step; the object left behind is in the middle of a run,
and a simulation that succeeds on the default object succeeds on it. -/
example : ∃ m : IRM U0 XR, IRM.init U0.reg (IRM.defaultArgs U0.reg) = .ok m ∧
    (∀ e ∈ ([(.setDrivers (exDrivers U0.reg), none), (.reset, none), (.run, some 2)] : List (IRM.Op U0 XR × Option Nat)), e.1.IsRun) ∧
    (IRM.afterI U0.reg m [(.setDrivers (exDrivers U0.reg), none), (.reset, none), (.run, some 2)]).idx = some 0 ∧
    (IRM.simulate U0.reg (exDrivers U0.reg) m).2 = .ok () ∧
    (IRM.simulate U0.reg (exDrivers U0.reg)
      (IRM.afterI U0.reg m [(.setDrivers (exDrivers U0.reg), none), (.reset, none), (.run, some 2)])).2 = .ok () := by
  obtain ⟨m, h1, h2, h3, -⟩ := IRM.default_exists U0.lawful
  have hr : IRM.Reachable U0.reg m := ⟨_, m, [], h1, rfl⟩
  have hi : ∀ e ∈ ([(.setDrivers (exDrivers U0.reg), none), (.reset, none), (.run, some 2)] : List (IRM.Op U0 XR × Option Nat)),
      e.1.IsRun := by
    intro e he
    simp only [List.mem_cons, List.not_mem_nil, or_false] at he
    rcases he with rfl | rfl | rfl <;> exact trivial
  obtain ⟨m', hm', -⟩ := IRM.produces_sol U0.lawful (IRM.init_coherent _ h1) h2 IRPar.default_ok (κ := 1) (by rw [h3]; exact isNum_self _ _) (by norm_num) (exDrivers_forcing (R := U0.reg)) (Or.inl (Or.inl rfl))
  have hok : (IRM.simulate U0.reg (exDrivers U0.reg) m).2 = .ok () := by rw [hm']
  refine ⟨m, h1, hi, ?_, hok, ((C116_impulse_response_run U0.reg m _ hi).2 _).1.trans hok⟩
  simp only [IRM.afterI, List.foldl, IRM.call]
  rw [exDrivers, IRM.setDrivers_good U0.reg m (Or.inl rfl)]
  simp only
  rw [IRM.reset_set _ (vals := [.fin 1, .fin 2, .fin 3]) (u := U0.reg.wm2) rfl rfl]
  · rfl
  · simp [XR.isNaN_fin]

/-- Concrete case for `C116_impulse_response_again` and `_setter`: two assignments of `efficacy`. -/
example : (IRM.Op.setEfficacy (.qty ⟨.fin 2, U0.reg.one⟩) : IRM.Op U0 XR).IsSetter ∧
    (IRM.Op.setEfficacy (.qty ⟨.fin 2, U0.reg.one⟩) : IRM.Op U0 XR).target =
      (IRM.Op.setEfficacy (.qty ⟨.fin 3, U0.reg.one⟩) : IRM.Op U0 XR).target ∧
    ∃ m : IRM U0 XR, IRM.init U0.reg (IRM.defaultArgs U0.reg) = .ok m ∧
      (IRM.call U0.reg (.setEfficacy (.qty ⟨.fin 3, U0.reg.one⟩)) m).2 = .ok () := by
  obtain ⟨m, h1, -⟩ := IRM.default_exists U0.lawful
  refine ⟨trivial, rfl, m, h1, ?_⟩
  simp only [IRM.call, IRM.setEfficacy, Py.bind_apply, Py.lift_apply,
    checkQty_good (R := U0.reg) (q := ⟨.fin 3, U0.reg.one⟩) (u := U0.reg.one) (Or.inl rfl), Py.modify_apply]

end TwoLayer
