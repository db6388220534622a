import Verif.Proofs.CopiesCalls
import Verif.Props.Threads

/-!
# C118: copies of a model object

`Copying.obj`: the objects of a program whose output arrays are on a heap (`Model/Copies.lean`); `Copying.objApart`: the objects of the
same program, were objects values (`Spec/Copies.lean`).
-/

set_option linter.unusedSimpArgs false
set_option linter.unusedSectionVars false

namespace TwoLayer
variable {N α : Type} [Fintype N] [DecidableEq N] [Arith α] [DecidableEq α]

theorem Ok.eq {r : Except Err Unit} (h : Ok r) : r = .ok () := by
  cases r with
  | ok _ => rfl
  | error _ => exact h.elim

/-! ## two-layer -/

/-- **C118** (two-layer, `copy.deepcopy`).  A program that makes two-layer objects and copies of them with `copy.deepcopy`, and calls
them in any order, catching exceptions: every object is what it would be were objects values. -/
theorem C118_two_layer_deep (R : Registry N α) (p : List (CEvent (TLM.Args N α) (TLM.Op N α))) (hp : ∀ i, CEvent.copy i ∉ p) (i : Nat) :
    (TLM.copying R).obj p i = (TLM.copying R).objApart p i := (TLM.copying_laws R).deep p hp i

/-- **C118** (two-layer, parameters and drivers).  Whatever a program does, with `copy.copy` too: the parameters and the drivers of an
object are what they would be were objects values; only its outputs and time index may not be. -/
theorem C118_two_layer_inputs (R : Registry N α) (p : List (CEvent (TLM.Args N α) (TLM.Op N α))) (i : Nat) :
    ((TLM.copying R).obj p i).map TLM.pub = ((TLM.copying R).objApart p i).map TLM.pub ∧
    ((TLM.copying R).obj p i).map (fun m => m.core.erf) = ((TLM.copying R).objApart p i).map (fun m => m.core.erf) := by
  have h : (((TLM.copying R).obj p i).map TLM.cleared) = (((TLM.copying R).objApart p i).map TLM.cleared) :=
    (TLM.copying_laws R).rest_obj p i
  have h1 := congrArg (Option.map TLM.pub) h
  have h2 := congrArg (Option.map fun m : TLM N α => m.core.erf) h
  rw [Option.map_map, Option.map_map] at h1 h2
  exact ⟨h1, h2⟩

/-- **C118** (two-layer, `copy.copy`).  Whatever a program did: once `reset` has gone through on an object (or `run_scenarios` has
come as far as its first), the object is what it would be were objects values, in every attribute and whatever happens next on
this and other objects, until it is itself copied with `copy.copy`. -/
theorem C118_two_layer_reset (R : Registry N α) (p p' : List (CEvent (TLM.Args N α) (TLM.Op N α))) {i : Nat} {m : TLM N α}
    (hm : (TLM.copying R).obj p i = some m) {op : TLM.Op N α}
    (hr : (op = .reset ∧ (TLM.reset m).2 = .ok ()) ∨
      ∃ dv scen, op = .runScenarios dv scen ∧ (runScenariosHead (TLM.variant R) R dv scen m).2 = .ok ())
    (hp : CEvent.copy i ∉ p') :
    (TLM.copying R).obj (p ++ .call i op :: p') i = (TLM.copying R).objApart (p ++ .call i op :: p') i ∧
    (TLM.copying R).obj (p ++ .call i op :: p') i = some (TLM.after R m (op :: callsOn i p')) := by
  have hr' : (TLM.copying R).rebinds op m := by
    rcases hr with ⟨rfl, h⟩ | ⟨dv, scen, rfl, h⟩
    · show Ok (TLM.reset m).2
      rw [h]; exact trivial
    · show Ok (runScenariosHead (TLM.variant R) R dv scen m).2
      rw [h]; exact trivial
  exact ⟨(TLM.copying_laws R).sync p p' hm hr' hp, (TLM.copying_laws R).own p p' hm hr' hp⟩

/-- **C118** (two-layer, simulations).  Whatever a program did, copies included: if `set_drivers`, `reset`, `run` would go through on
an object, then calling them in a program, whatever it does to other objects in between, leaves in it exactly what they leave
in it alone (provided it is not copied with `copy.copy` between `reset` and the end). -/
theorem C118_two_layer_simulate (R : Registry N α) (p p₁ p₂ p₃ : List (CEvent (TLM.Args N α) (TLM.Op N α))) {i : Nat} {m m' : TLM N α}
    (hm : (TLM.copying R).obj p i = some m) {d : DArg N α} (hs : TLM.simulate R d m = (m', .ok ()))
    (h₁ : callsOn i p₁ = []) (h₂ : callsOn i p₂ = []) (h₃ : callsOn i p₃ = []) (c₂ : CEvent.copy i ∉ p₂) (c₃ : CEvent.copy i ∉ p₃) :
    (TLM.copying R).obj ((p ++ .call i (.setDrivers d) :: p₁) ++ .call i .reset :: (p₂ ++ .call i .run :: p₃)) i = some m' := by
  obtain ⟨m₁, e1, e2⟩ : ∃ m₁, TLM.setDrivers R d m = (m₁, .ok ()) ∧ (TLM.reset >>= fun _ => TLM.run) m₁ = (m', .ok ()) := by
    rw [TLM.simulate, Py.bind_apply] at hs
    rcases e : TLM.setDrivers R d m with ⟨s, x | u⟩
    · rw [e] at hs; exact absurd hs (by simp)
    · rw [e] at hs; exact ⟨s, rfl, hs⟩
  obtain ⟨m₂, e3, e4⟩ : ∃ m₂, TLM.reset m₁ = (m₂, .ok ()) ∧ TLM.run m₂ = (m', .ok ()) := by
    rw [Py.bind_apply] at e2
    rcases e : TLM.reset m₁ with ⟨s, x | u⟩
    · rw [e] at e2; exact absurd e2 (by simp)
    · rw [e] at e2; exact ⟨s, rfl, e2⟩
  -- the object after `set_drivers` and what follows: `m₁` in everything but its outputs and time index
  obtain ⟨k, hk, hc⟩ : ∃ k, (TLM.copying R).obj (p ++ .call i (.setDrivers d) :: p₁) i = some k ∧ k.cleared = m₁.cleared := by
    have ha : ((TLM.copying R).objApart p i).map TLM.cleared = some m.cleared := by
      refine ((TLM.copying_laws R).rest_obj p i).symm.trans ?_
      rw [hm]; rfl
    obtain ⟨a, ha1, ha2⟩ := Option.map_eq_some_iff.mp ha
    have hb : (TLM.copying R).objApart (p ++ .call i (.setDrivers d) :: p₁) i = some (TLM.setDrivers R d a).1 := by
      rw [Copying.objApart, List.foldl_append, (TLM.copying_laws R).apart_calls _ ha1]
      have : callsOn i (CEvent.call (Args := TLM.Args N α) i (TLM.Op.setDrivers d) :: p₁) = [.setDrivers d] := by
        rw [Copying.callsOn_cons, h₁]; simp [callsOn]
      rw [this]; rfl
    have hf : ((TLM.copying R).obj (p ++ .call i (.setDrivers d) :: p₁) i).map TLM.cleared =
        some (TLM.setDrivers R d a).1.cleared := by
      refine ((TLM.copying_laws R).rest_obj _ i).trans ?_
      rw [hb]; rfl
    obtain ⟨k, hk1, hk2⟩ := Option.map_eq_some_iff.mp hf
    refine ⟨k, hk1, hk2.trans ?_⟩
    have := TLM.call_cleared R (.setDrivers d) ha2
    simp only [TLM.call, e1] at this
    exact this
  have hr : (TLM.copying R).rebinds .reset k := by
    show Ok (TLM.reset k).2
    rw [(TLM.reset_joins hc).1, e3]; exact trivial
  have hcopy : CEvent.copy i ∉ p₂ ++ .call i TLM.Op.run :: p₃ := by simp [c₂, c₃]
  have hall : callsOn i (p₂ ++ CEvent.call i TLM.Op.run :: p₃) = [.run] := by
    have : callsOn i (p₂ ++ CEvent.call i TLM.Op.run :: p₃) = callsOn i p₂ ++ callsOn i (CEvent.call i TLM.Op.run :: p₃) :=
      List.filterMap_append
    rw [this, Copying.callsOn_cons, h₂, h₃]; simp [callsOn]
  rw [(TLM.copying_laws R).own _ _ hk hr hcopy, hall]
  have e5 : TLM.reset k = TLM.reset m₁ := (TLM.reset_joins hc).2 hr
  show some (TLM.run (TLM.reset k).1).1 = some m'
  rw [e5, e3, e4]

/-- **C118** (two-layer, what is shared).  Right after `copy.copy` a call on either object that makes no new arrays (every call but a
`reset` or `run_scenarios` that goes through) leaves its outputs in the other too. -/
theorem C118_two_layer_shared (R : Registry N α) (p : List (CEvent (TLM.Args N α) (TLM.Op N α))) {i : Nat} {m : TLM N α}
    (hm : (TLM.copying R).obj p i = some m) :
    ∃ j, (TLM.copying R).obj p j = none ∧ (TLM.copying R).obj (p ++ [.copy i]) j = some m ∧
      ∀ op, ¬ (op = .reset ∧ (TLM.reset m).2 = .ok ()) →
          ¬ (∃ dv scen, op = .runScenarios dv scen ∧ (runScenariosHead (TLM.variant R) R dv scen m).2 = .ok ()) →
        (TLM.copying R).obj (p ++ [.copy i, .call j op]) i = some { m with
          tu := (TLM.call R op m).1.tu, tl := (TLM.call R op m).1.tl, rndt := (TLM.call R op m).1.rndt } ∧
        (TLM.copying R).obj (p ++ [.copy i, .call j op]) j = some (TLM.call R op m).1 ∧
        (TLM.copying R).obj (p ++ [.copy i, .call i op]) i = some (TLM.call R op m).1 ∧
        (TLM.copying R).obj (p ++ [.copy i, .call i op]) j = some { m with
          tu := (TLM.call R op m).1.tu, tl := (TLM.call R op m).1.tl, rndt := (TLM.call R op m).1.rndt } := by
  obtain ⟨j, h1, h2, h3⟩ := (TLM.copying_laws R).alias p hm
  refine ⟨j, h1, h2, fun op n1 n2 => h3 op fun hr => ?_⟩
  cases op with
  | reset => exact n1 ⟨rfl, Ok.eq hr⟩
  | runScenarios dv scen => exact n2 ⟨dv, scen, rfl, Ok.eq hr⟩
  | _ => exact hr.elim

/-- `set_drivers`, `reset` on a new object -/
noncomputable def exTLMReset : List (CEvent (TLM.Args U0 XR) (TLM.Op U0 XR)) :=
  [.create (TLM.defaultArgs U0.reg), .call 0 (.setDrivers (exDrivers U0.reg)), .call 0 .reset]

/-- Concrete case, and why the last clause of `C118_two_layer_reset` is there: an object is made, given drivers and reset, and copied
with `copy.copy`; the copy's `step` puts the first temperature into the original, whose time index has not moved. -/
theorem C118_two_layer_counterexample : ∃ (m m' : TLM U0 XR) (j : Nat),
    (TLM.copying U0.reg).obj exTLMReset 0 = some m ∧ (TLM.copying U0.reg).obj exTLMReset j = none ∧
    (TLM.copying U0.reg).obj (exTLMReset ++ [.copy 0, .call j .step]) 0 = some m' ∧
    m.tu = [.nan, .nan, .nan] ∧ m.idx = none ∧ m'.tu = [.fin 0, .nan, .nan] ∧ m'.idx = none := by
  obtain ⟨m, h1, h2⟩ := TLM.default_exists U0.lawful
  obtain ⟨k, hk, k1, k2, k3, k4⟩ : ∃ k : TLM U0 XR, (TLM.copying U0.reg).obj exTLMReset 0 = some k ∧ k.tu = [.nan, .nan, .nan] ∧
      k.tl = [.nan, .nan, .nan] ∧ k.rndt = [.nan, .nan, .nan] ∧ k.idx = none := by
    have e : (TLM.copying U0.reg).init (TLM.defaultArgs U0.reg) = .ok m := h1
    refine ⟨(TLM.reset (TLM.setDrivers U0.reg (exDrivers U0.reg) m).1).1, ?_, ?_⟩
    · rw [C118_two_layer_deep _ _ (by intro i hi; simp [exTLMReset] at hi)]
      simp only [Copying.objApart, exTLMReset, List.foldl_cons, List.foldl_nil, Copying.apart, e, List.nil_append,
        List.getElem?_cons_zero, List.set_cons_zero]
      rfl
    · rw [exDrivers, TLM.setDrivers_good U0.reg m (Or.inl rfl)]
      simp only
      rw [TLM.reset_set _ (vals := [.fin 1, .fin 2, .fin 3]) (u := U0.reg.wm2) rfl rfl]
      · exact ⟨rfl, rfl, rfl, rfl⟩
      · simp [XR.isNaN_fin]
  obtain ⟨j, hj, -, h⟩ := C118_two_layer_shared U0.reg exTLMReset hk
  obtain ⟨h', -⟩ := h .step (fun h => nomatch h.1) (fun ⟨_, _, h, _⟩ => nomatch h)
  refine ⟨k, _, j, hk, hj, h', k1, k4, ?_, k4⟩
  have z : (Arith.dec 0 1 : XR) = .fin 0 := by simp [Arith.dec]
  simp [TLM.call, TLM.step, k1, k2, k3, k4, nextIdx, setAt, z, Py.bind_apply]

/-- Concrete case of `C118_two_layer_reset` and `C118_two_layer_simulate`: the same program goes on with `set_drivers`, `reset`, `run` on
the original while the copy steps in between. -/
example : ∃ (m m' m'' : TLM U0 XR) (j : Nat),
    (TLM.copying U0.reg).obj exTLMReset 0 = some m ∧ (TLM.copying U0.reg).obj exTLMReset j = none ∧
    (TLM.copying U0.reg).obj (exTLMReset ++ [.copy 0, .call j .step]) 0 = some m' ∧
    TLM.simulate U0.reg (exDrivers U0.reg) m' = (m'', .ok ()) ∧
    (TLM.copying U0.reg).obj (((exTLMReset ++ [.copy 0, .call j .step]) ++ .call 0 (.setDrivers (exDrivers U0.reg)) :: [.call j .step]) ++
      .call 0 .reset :: ([.call j .step] ++ .call 0 .run :: [.call j .step, .call j .reset])) 0 = some m'' := by
  obtain ⟨m, m', j, g1, g2, g3, -⟩ := C118_two_layer_counterexample
  have hj : j ≠ 0 := fun e => by rw [e, g1] at g2; cases g2
  obtain ⟨m₀, i1, h2⟩ := TLM.default_exists U0.lawful
  obtain ⟨m₁, hm', -⟩ := TLM.produces_sol U0.lawful (TLM.init_coherent _ i1) h2 TLPar.default_ok (by norm_num)
    (exDrivers_forcing (R := U0.reg))
  -- the drivers and parameters the object has are those it was made with
  have hu : m'.used = m₀.used := by
    have e : (TLM.copying U0.reg).init (TLM.defaultArgs U0.reg) = .ok m₀ := i1
    have ha : ∃ b, (TLM.copying U0.reg).objApart (exTLMReset ++ [.copy 0, .call j .step]) 0 = some b ∧ b.used = m₀.used := by
      refine ⟨(TLM.reset (TLM.setDrivers U0.reg (exDrivers U0.reg) m₀).1).1, ?_, ?_⟩
      · rw [Copying.objApart, List.foldl_append]
        have hb : (exTLMReset.foldl (TLM.copying U0.reg).apart [])[0]? = some (TLM.reset (TLM.setDrivers U0.reg (exDrivers U0.reg) m₀).1).1 := by
          simp only [exTLMReset, List.foldl_cons, List.foldl_nil, Copying.apart, e, List.nil_append,
            List.getElem?_cons_zero, List.set_cons_zero]
          rfl
        rw [(TLM.copying_laws U0.reg).apart_calls _ hb]
        simp [callsOn, hj]
      · have e1 := (TLM.resetT_keeps (N := U0) (α := XR)).whole (TLM.setDrivers U0.reg (exDrivers U0.reg) m₀).1
        have e2 := (TLM.setDriversT_keeps U0.reg (exDrivers U0.reg)).whole m₀
        rw [TLM.whole_reset] at e1
        rw [TLM.whole_setDrivers] at e2
        exact e1.trans e2
    obtain ⟨b, hb1, hb2⟩ := ha
    have hf := (TLM.copying_laws U0.reg).rest_obj (exTLMReset ++ [.copy 0, .call j .step]) 0
    rw [g3, hb1] at hf
    exact (TLM.used_of_cleared (Option.some.inj hf)).trans hb2
  obtain ⟨u1, u2⟩ := TLM.simulate_used U0.reg hu (exDrivers U0.reg)
  have hs : TLM.simulate U0.reg (exDrivers U0.reg) m' = ((TLM.simulate U0.reg (exDrivers U0.reg) m').1, .ok ()) :=
    Prod.ext rfl (u1.trans (by rw [hm']))
  exact ⟨m, m', _, j, g1, g2, g3, hs, C118_two_layer_simulate U0.reg _ _ _ _ g3 hs (by simp [callsOn, hj]) (by simp [callsOn, hj])
    (by simp [callsOn, hj]) (by simp) (by simp)⟩

/-! ## impulse response -/

/-- **C118** (impulse response, `copy.deepcopy`).  A program that makes impulse response objects and copies of them with `copy.deepcopy`, and calls
them in any order, catching exceptions: every object is what it would be were objects values. -/
theorem C118_impulse_response_deep (R : Registry N α) (p : List (CEvent (IRM.Args N α) (IRM.Op N α))) (hp : ∀ i, CEvent.copy i ∉ p) (i : Nat) :
    (IRM.copying R).obj p i = (IRM.copying R).objApart p i := (IRM.copying_laws R).deep p hp i

/-- **C118** (impulse response, parameters and drivers).  Whatever a program does, with `copy.copy` too: the parameters and the drivers of an
object are what they would be were objects values; only its outputs and time index may not be. -/
theorem C118_impulse_response_inputs (R : Registry N α) (p : List (CEvent (IRM.Args N α) (IRM.Op N α))) (i : Nat) :
    ((IRM.copying R).obj p i).map IRM.pub = ((IRM.copying R).objApart p i).map IRM.pub ∧
    ((IRM.copying R).obj p i).map (fun m => m.core.erf) = ((IRM.copying R).objApart p i).map (fun m => m.core.erf) := by
  have h : (((IRM.copying R).obj p i).map IRM.cleared) = (((IRM.copying R).objApart p i).map IRM.cleared) :=
    (IRM.copying_laws R).rest_obj p i
  have h1 := congrArg (Option.map IRM.pub) h
  have h2 := congrArg (Option.map fun m : IRM N α => m.core.erf) h
  rw [Option.map_map, Option.map_map] at h1 h2
  exact ⟨h1, h2⟩

/-- **C118** (impulse response, `copy.copy`).  Whatever a program did: once `reset` has gone through on an object (or `run_scenarios` has
come as far as its first), the object is what it would be were objects values, in every attribute and whatever happens next on
this and other objects, until it is itself copied with `copy.copy`. -/
theorem C118_impulse_response_reset (R : Registry N α) (p p' : List (CEvent (IRM.Args N α) (IRM.Op N α))) {i : Nat} {m : IRM N α}
    (hm : (IRM.copying R).obj p i = some m) {op : IRM.Op N α}
    (hr : (op = .reset ∧ (IRM.reset m).2 = .ok ()) ∨
      ∃ dv scen, op = .runScenarios dv scen ∧ (runScenariosHead (IRM.variant R) R dv scen m).2 = .ok ())
    (hp : CEvent.copy i ∉ p') :
    (IRM.copying R).obj (p ++ .call i op :: p') i = (IRM.copying R).objApart (p ++ .call i op :: p') i ∧
    (IRM.copying R).obj (p ++ .call i op :: p') i = some (IRM.after R m (op :: callsOn i p')) := by
  have hr' : (IRM.copying R).rebinds op m := by
    rcases hr with ⟨rfl, h⟩ | ⟨dv, scen, rfl, h⟩
    · show Ok (IRM.reset m).2
      rw [h]; exact trivial
    · show Ok (runScenariosHead (IRM.variant R) R dv scen m).2
      rw [h]; exact trivial
  exact ⟨(IRM.copying_laws R).sync p p' hm hr' hp, (IRM.copying_laws R).own p p' hm hr' hp⟩

/-- **C118** (impulse response, simulations).  Whatever a program did, copies included: if `set_drivers`, `reset`, `run` would go through on
an object, then calling them in a program, whatever it does to other objects in between, leaves in it exactly what they leave
in it alone (provided it is not copied with `copy.copy` between `reset` and the end). -/
theorem C118_impulse_response_simulate (R : Registry N α) (p p₁ p₂ p₃ : List (CEvent (IRM.Args N α) (IRM.Op N α))) {i : Nat} {m m' : IRM N α}
    (hm : (IRM.copying R).obj p i = some m) {d : DArg N α} (hs : IRM.simulate R d m = (m', .ok ()))
    (h₁ : callsOn i p₁ = []) (h₂ : callsOn i p₂ = []) (h₃ : callsOn i p₃ = []) (c₂ : CEvent.copy i ∉ p₂) (c₃ : CEvent.copy i ∉ p₃) :
    (IRM.copying R).obj ((p ++ .call i (.setDrivers d) :: p₁) ++ .call i .reset :: (p₂ ++ .call i .run :: p₃)) i = some m' := by
  obtain ⟨m₁, e1, e2⟩ : ∃ m₁, IRM.setDrivers R d m = (m₁, .ok ()) ∧ (IRM.reset >>= fun _ => IRM.run R) m₁ = (m', .ok ()) := by
    rw [IRM.simulate, Py.bind_apply] at hs
    rcases e : IRM.setDrivers R d m with ⟨s, x | u⟩
    · rw [e] at hs; exact absurd hs (by simp)
    · rw [e] at hs; exact ⟨s, rfl, hs⟩
  obtain ⟨m₂, e3, e4⟩ : ∃ m₂, IRM.reset m₁ = (m₂, .ok ()) ∧ IRM.run R m₂ = (m', .ok ()) := by
    rw [Py.bind_apply] at e2
    rcases e : IRM.reset m₁ with ⟨s, x | u⟩
    · rw [e] at e2; exact absurd e2 (by simp)
    · rw [e] at e2; exact ⟨s, rfl, e2⟩
  -- the object after `set_drivers` and what follows: `m₁` in everything but its outputs and time index
  obtain ⟨k, hk, hc⟩ : ∃ k, (IRM.copying R).obj (p ++ .call i (.setDrivers d) :: p₁) i = some k ∧ k.cleared = m₁.cleared := by
    have ha : ((IRM.copying R).objApart p i).map IRM.cleared = some m.cleared := by
      refine ((IRM.copying_laws R).rest_obj p i).symm.trans ?_
      rw [hm]; rfl
    obtain ⟨a, ha1, ha2⟩ := Option.map_eq_some_iff.mp ha
    have hb : (IRM.copying R).objApart (p ++ .call i (.setDrivers d) :: p₁) i = some (IRM.setDrivers R d a).1 := by
      rw [Copying.objApart, List.foldl_append, (IRM.copying_laws R).apart_calls _ ha1]
      have : callsOn i (CEvent.call (Args := IRM.Args N α) i (IRM.Op.setDrivers d) :: p₁) = [.setDrivers d] := by
        rw [Copying.callsOn_cons, h₁]; simp [callsOn]
      rw [this]; rfl
    have hf : ((IRM.copying R).obj (p ++ .call i (.setDrivers d) :: p₁) i).map IRM.cleared =
        some (IRM.setDrivers R d a).1.cleared := by
      refine ((IRM.copying_laws R).rest_obj _ i).trans ?_
      rw [hb]; rfl
    obtain ⟨k, hk1, hk2⟩ := Option.map_eq_some_iff.mp hf
    refine ⟨k, hk1, hk2.trans ?_⟩
    have := IRM.call_cleared R (.setDrivers d) ha2
    simp only [IRM.call, e1] at this
    exact this
  have hr : (IRM.copying R).rebinds .reset k := by
    show Ok (IRM.reset k).2
    rw [(IRM.reset_joins hc).1, e3]; exact trivial
  have hcopy : CEvent.copy i ∉ p₂ ++ .call i IRM.Op.run :: p₃ := by simp [c₂, c₃]
  have hall : callsOn i (p₂ ++ CEvent.call i IRM.Op.run :: p₃) = [.run] := by
    have : callsOn i (p₂ ++ CEvent.call i IRM.Op.run :: p₃) = callsOn i p₂ ++ callsOn i (CEvent.call i IRM.Op.run :: p₃) :=
      List.filterMap_append
    rw [this, Copying.callsOn_cons, h₂, h₃]; simp [callsOn]
  rw [(IRM.copying_laws R).own _ _ hk hr hcopy, hall]
  have e5 : IRM.reset k = IRM.reset m₁ := (IRM.reset_joins hc).2 hr
  show some (IRM.run R (IRM.reset k).1).1 = some m'
  rw [e5, e3, e4]

/-- **C118** (impulse response, what is shared).  Right after `copy.copy` a call on either object that makes no new arrays (every call but a
`reset` or `run_scenarios` that goes through) leaves its outputs in the other too. -/
theorem C118_impulse_response_shared (R : Registry N α) (p : List (CEvent (IRM.Args N α) (IRM.Op N α))) {i : Nat} {m : IRM N α}
    (hm : (IRM.copying R).obj p i = some m) :
    ∃ j, (IRM.copying R).obj p j = none ∧ (IRM.copying R).obj (p ++ [.copy i]) j = some m ∧
      ∀ op, ¬ (op = .reset ∧ (IRM.reset m).2 = .ok ()) →
          ¬ (∃ dv scen, op = .runScenarios dv scen ∧ (runScenariosHead (IRM.variant R) R dv scen m).2 = .ok ()) →
        (IRM.copying R).obj (p ++ [.copy i, .call j op]) i = some { m with
          t1 := (IRM.call R op m).1.t1, t2 := (IRM.call R op m).1.t2, rndt := (IRM.call R op m).1.rndt } ∧
        (IRM.copying R).obj (p ++ [.copy i, .call j op]) j = some (IRM.call R op m).1 ∧
        (IRM.copying R).obj (p ++ [.copy i, .call i op]) i = some (IRM.call R op m).1 ∧
        (IRM.copying R).obj (p ++ [.copy i, .call i op]) j = some { m with
          t1 := (IRM.call R op m).1.t1, t2 := (IRM.call R op m).1.t2, rndt := (IRM.call R op m).1.rndt } := by
  obtain ⟨j, h1, h2, h3⟩ := (IRM.copying_laws R).alias p hm
  refine ⟨j, h1, h2, fun op n1 n2 => h3 op fun hr => ?_⟩
  cases op with
  | reset => exact n1 ⟨rfl, Ok.eq hr⟩
  | runScenarios dv scen => exact n2 ⟨dv, scen, rfl, Ok.eq hr⟩
  | _ => exact hr.elim

/-- `set_drivers`, `reset` on a new object -/
noncomputable def exIRMReset : List (CEvent (IRM.Args U0 XR) (IRM.Op U0 XR)) :=
  [.create (IRM.defaultArgs U0.reg), .call 0 (.setDrivers (exDrivers U0.reg)), .call 0 .reset]

/-- Concrete case, and why the last clause of `C118_impulse_response_reset` is there: an object is made, given drivers and reset, and copied
with `copy.copy`; the copy's `step` puts the first temperature into the original, whose time index has not moved. -/
theorem C118_impulse_response_counterexample : ∃ (m m' : IRM U0 XR) (j : Nat),
    (IRM.copying U0.reg).obj exIRMReset 0 = some m ∧ (IRM.copying U0.reg).obj exIRMReset j = none ∧
    (IRM.copying U0.reg).obj (exIRMReset ++ [.copy 0, .call j .step]) 0 = some m' ∧
    m.t1 = [.nan, .nan, .nan] ∧ m.idx = none ∧ m'.t1 = [.fin 0, .nan, .nan] ∧ m'.idx = none := by
  obtain ⟨m, h1, h2, h3, -⟩ := IRM.default_exists U0.lawful
  obtain ⟨k, hk, k1, k2, k3, k4⟩ : ∃ k : IRM U0 XR, (IRM.copying U0.reg).obj exIRMReset 0 = some k ∧ k.t1 = [.nan, .nan, .nan] ∧
      k.t2 = [.nan, .nan, .nan] ∧ k.rndt = [.nan, .nan, .nan] ∧ k.idx = none := by
    have e : (IRM.copying U0.reg).init (IRM.defaultArgs U0.reg) = .ok m := h1
    refine ⟨(IRM.reset (IRM.setDrivers U0.reg (exDrivers U0.reg) m).1).1, ?_, ?_⟩
    · rw [C118_impulse_response_deep _ _ (by intro i hi; simp [exIRMReset] at hi)]
      simp only [Copying.objApart, exIRMReset, List.foldl_cons, List.foldl_nil, Copying.apart, e, List.nil_append,
        List.getElem?_cons_zero, List.set_cons_zero]
      rfl
    · rw [exDrivers, IRM.setDrivers_good U0.reg m (Or.inl rfl)]
      simp only
      rw [IRM.reset_set _ (vals := [.fin 1, .fin 2, .fin 3]) (u := U0.reg.wm2) rfl rfl]
      · exact ⟨rfl, rfl, rfl, rfl⟩
      · simp [XR.isNaN_fin]
  obtain ⟨j, hj, -, h⟩ := C118_impulse_response_shared U0.reg exIRMReset hk
  obtain ⟨h', -⟩ := h .step (fun h => nomatch h.1) (fun ⟨_, _, h, _⟩ => nomatch h)
  refine ⟨k, _, j, hk, hj, h', k1, k4, ?_, k4⟩
  have z : (Arith.dec 0 1 : XR) = .fin 0 := by simp [Arith.dec]
  simp [IRM.call, IRM.step, k1, k2, k3, k4, nextIdx, setAt, z, Py.bind_apply]

/-- Concrete case of `C118_impulse_response_reset` and `C118_impulse_response_simulate`: the same program goes on with `set_drivers`, `reset`, `run` on
the original while the copy steps in between. -/
example : ∃ (m m' m'' : IRM U0 XR) (j : Nat),
    (IRM.copying U0.reg).obj exIRMReset 0 = some m ∧ (IRM.copying U0.reg).obj exIRMReset j = none ∧
    (IRM.copying U0.reg).obj (exIRMReset ++ [.copy 0, .call j .step]) 0 = some m' ∧
    IRM.simulate U0.reg (exDrivers U0.reg) m' = (m'', .ok ()) ∧
    (IRM.copying U0.reg).obj (((exIRMReset ++ [.copy 0, .call j .step]) ++ .call 0 (.setDrivers (exDrivers U0.reg)) :: [.call j .step]) ++
      .call 0 .reset :: ([.call j .step] ++ .call 0 .run :: [.call j .step, .call j .reset])) 0 = some m'' := by
  obtain ⟨m, m', j, g1, g2, g3, -⟩ := C118_impulse_response_counterexample
  have hj : j ≠ 0 := fun e => by rw [e, g1] at g2; cases g2
  obtain ⟨m₀, i1, h2, h3', -⟩ := IRM.default_exists U0.lawful
  obtain ⟨m₁, hm', -⟩ := IRM.produces_sol U0.lawful (IRM.init_coherent _ i1) h2 IRPar.default_ok (κ := 1)
    (by rw [h3']; exact isNum_self _ _) (by norm_num) (exDrivers_forcing (R := U0.reg)) (Or.inl (Or.inl rfl))
  -- the drivers and parameters the object has are those it was made with
  have hu : m'.used = m₀.used := by
    have e : (IRM.copying U0.reg).init (IRM.defaultArgs U0.reg) = .ok m₀ := i1
    have ha : ∃ b, (IRM.copying U0.reg).objApart (exIRMReset ++ [.copy 0, .call j .step]) 0 = some b ∧ b.used = m₀.used := by
      refine ⟨(IRM.reset (IRM.setDrivers U0.reg (exDrivers U0.reg) m₀).1).1, ?_, ?_⟩
      · rw [Copying.objApart, List.foldl_append]
        have hb : (exIRMReset.foldl (IRM.copying U0.reg).apart [])[0]? = some (IRM.reset (IRM.setDrivers U0.reg (exDrivers U0.reg) m₀).1).1 := by
          simp only [exIRMReset, List.foldl_cons, List.foldl_nil, Copying.apart, e, List.nil_append,
            List.getElem?_cons_zero, List.set_cons_zero]
          rfl
        rw [(IRM.copying_laws U0.reg).apart_calls _ hb]
        simp [callsOn, hj]
      · have e1 := (IRM.resetT_keeps (N := U0) (α := XR)).whole (IRM.setDrivers U0.reg (exDrivers U0.reg) m₀).1
        have e2 := (IRM.setDriversT_keeps U0.reg (exDrivers U0.reg)).whole m₀
        rw [IRM.whole_reset] at e1
        rw [IRM.whole_setDrivers] at e2
        exact e1.trans e2
    obtain ⟨b, hb1, hb2⟩ := ha
    have hf := (IRM.copying_laws U0.reg).rest_obj (exIRMReset ++ [.copy 0, .call j .step]) 0
    rw [g3, hb1] at hf
    exact (IRM.used_of_cleared (Option.some.inj hf)).trans hb2
  obtain ⟨u1, u2⟩ := IRM.simulate_used U0.reg hu (exDrivers U0.reg)
  have hs : IRM.simulate U0.reg (exDrivers U0.reg) m' = ((IRM.simulate U0.reg (exDrivers U0.reg) m').1, .ok ()) :=
    Prod.ext rfl (u1.trans (by rw [hm']))
  exact ⟨m, m', _, j, g1, g2, g3, hs, C118_impulse_response_simulate U0.reg _ _ _ _ g3 hs (by simp [callsOn, hj]) (by simp [callsOn, hj])
    (by simp [callsOn, hj]) (by simp) (by simp)⟩

end TwoLayer
