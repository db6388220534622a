import Verif.Proofs.Scalars
import Verif.Proofs.Init

/-!
# C106: Python numbers and numpy scalars

Stated for every arithmetic `α` (no laws), hence for doubles, and every registry.  A value over `Sc α` is a value in
which each scalar is a Python number or a numpy scalar; `erase` is the same value with Python numbers only
(`Spec/Scalars.lean`).
-/

set_option linter.unusedSimpArgs false
set_option linter.unusedSectionVars false

namespace TwoLayer
variable {N α : Type} [Fintype N] [DecidableEq N] [Arith α] {R : Registry N α}

private theorem use {A B : Type} {g : A → B} {x : Except Err A} {y : Except Err B} (h : Ref g x y)
    (hy : ∀ e, y = .error e → ¬ e.kind) : y = x.map g := by
  rcases h with ⟨e, h1, h2⟩ | h
  · exact absurd h2 (hy e h1)
  · exact h

private theorem puse {σ τ A B : Type} {er : σ → τ} {g : A → B} {x : Py σ A} {y : Py τ B} (h : PRef er g x y) (s : σ)
    (hy : ∀ e, (y (er s)).2 = .error e → ¬ e.kind) : y (er s) = (er (x s).1, (x s).2.map g) := by
  rcases h s with ⟨e, h1, h2⟩ | h
  · exact absurd h2 (hy e h1)
  · exact h

private theorem map_id' {x : Except Err Unit} : x.map (id : Unit → Unit) = x := by cases x <;> rfl

/-- Constructors: the same object, or the same exception, whatever the kinds of the arguments' scalars. -/
theorem C106_construct :
    (∀ x : TLM.Args N (Sc α), TLM.init R x.erase = (TLM.init R.scalars x).map TLM.erase) ∧
    (∀ x : IRM.Args N (Sc α), IRM.init R x.erase = (IRM.init R.scalars x).map IRM.erase) := by
  have hq : ∀ (v : Arg N α) (n : String) (u : Units N) e, checkQty R v n u = .error e → ¬ e.kind := by
    intro v n u e h hk
    cases v with
    | bare => cases h; exact hk
    | qty q =>
      simp only [checkQty] at h
      revert h
      cases q.toUnit R u with
      | ok a => intro h; cases h
      | error e' => intro h; cases h; exact hk
  have ht : ∀ (q : Qty N α) (u : Units N) e, q.toUnit R u = .error e → ¬ e.kind := by
    intro q u e h hk
    unfold Qty.toUnit at h
    split at h
    · cases h
    · cases h; exact hk
  have hb : ∀ {A B : Type} (x : Except Err A) (f : A → Except Err B), (∀ e, x = .error e → ¬ e.kind) →
      (∀ a e, f a = .error e → ¬ e.kind) → ∀ e, (x >>= f) = .error e → ¬ e.kind := by
    intro A B x f h1 h2 e h
    cases x with
    | ok a => exact h2 a e h
    | error e' => cases h; exact h1 _ rfl
  refine ⟨fun x => use (TLM.ref_init x) ?_, fun x => use (IRM.ref_init x) ?_⟩
  · unfold TLM.init
    refine hb _ _ (hq _ _ _) fun _ => hb _ _ (ht _ _) fun _ => hb _ _ (hq _ _ _) fun _ => hb _ _ (ht _ _) fun _ =>
      hb _ _ (hq _ _ _) fun _ => hb _ _ (hq _ _ _) fun _ => hb _ _ (hq _ _ _) fun _ => hb _ _ (hq _ _ _) fun _ =>
      hb _ _ (hq _ _ _) fun _ e h => nomatch h
  · unfold IRM.init
    refine hb _ _ (hq _ _ _) fun _ => hb _ _ (hq _ _ _) fun _ => hb _ _ (hq _ _ _) fun _ => hb _ _ (hq _ _ _) fun _ =>
      hb _ _ (hq _ _ _) fun _ => hb _ _ (hq _ _ _) fun _ => hb _ _ ?_ ?_
    · intro e h hk
      unfold Qty.ge at h
      split at h
      · cases h
      · split at h
        · cases h
        · cases h; exact hk
    · intro b e h hk
      cases b
      · simp only [Bool.false_eq_true, if_false] at h; cases h
      · simp only [if_true] at h; cases h; exact hk

/-- Conversions: unless Python numbers lead to division by zero or to the square root of a negative number, both
conversions and `convert_lambda_to_ecs` give the same values and units, or the same exception, whatever the kinds. -/
theorem C106_convert :
    (∀ m : TLM N (Sc α), (∀ e, m.erase.getImpulseResponseParameters R = .error e → ¬ e.kind) →
      m.erase.getImpulseResponseParameters R = (m.getImpulseResponseParameters R.scalars).map TLM.IRParams.erase) ∧
    (∀ m : IRM N (Sc α), (∀ e, m.erase.getTwoLayerParameters R = .error e → ¬ e.kind) →
      m.erase.getTwoLayerParameters R = (m.getTwoLayerParameters R.scalars).map IRM.TLParams.erase) ∧
    (∀ l f : Arg N (Sc α), (∀ e, convertLambdaToEcs l.erase f.erase = .error e → ¬ e.kind) →
      convertLambdaToEcs l.erase f.erase = (convertLambdaToEcs l f).map Qty.erase) :=
  ⟨fun m => use (ref_getIR m), fun m => use (ref_getTL m), fun l f => use (ref_ecs l f)⟩

section
variable [DecidableEq α]

/-- Any call on a two-layer object: the same exception or none, and the same object afterwards, unless the call with
Python numbers only raises one of the exceptions listed in `Err.kind`. -/
theorem C106_calls_two_layer (m : TLM N (Sc α)) (op : TLM.Op N (Sc α))
    (h : ∀ e, (TLM.call R op.erase m.erase).2 = .error e → ¬ e.kind) :
    TLM.call R op.erase m.erase = ((TLM.call R.scalars op m).1.erase, (TLM.call R.scalars op m).2) := by
  have := puse (TLM.pref_call op) m h
  rwa [map_id'] at this

/-- The same for an impulse response object. -/
theorem C106_calls_impulse_response (m : IRM N (Sc α)) (op : IRM.Op N (Sc α))
    (h : ∀ e, (IRM.call R op.erase m.erase).2 = .error e → ¬ e.kind) :
    IRM.call R op.erase m.erase = ((IRM.call R.scalars op m).1.erase, (IRM.call R.scalars op m).2) := by
  have := puse (IRM.pref_call op) m h
  rwa [map_id'] at this

/-- Any sequence of calls, exceptions caught. -/
theorem C106_histories_two_layer (m : TLM N (Sc α)) (ops : List (TLM.Op N (Sc α)))
    (h : ∀ k, ∀ hk : k < ops.length, ∀ e,
      (TLM.call R (ops[k]).erase (TLM.after R m.erase ((ops.take k).map TLM.Op.erase))).2 = .error e → ¬ e.kind) :
    TLM.after R m.erase (ops.map TLM.Op.erase) = (TLM.after R.scalars m ops).erase := by
  induction ops generalizing m with
  | nil => rfl
  | cons op ops ih =>
    have h0 := h 0 (Nat.succ_pos _)
    have hc := C106_calls_two_layer m op h0
    have e1 : ∀ l, TLM.after R m.erase (op.erase :: l) = TLM.after R (TLM.call R.scalars op m).1.erase l := by
      intro l
      show TLM.after R (TLM.call R op.erase m.erase).1 l = _
      rw [hc]
    show TLM.after R m.erase (op.erase :: ops.map TLM.Op.erase) = TLM.erase (TLM.after R.scalars (TLM.call R.scalars op m).1 ops)
    rw [e1]
    refine ih _ fun k hk e he => ?_
    refine h (k + 1) (Nat.succ_lt_succ hk) e ?_
    rw [List.take_succ_cons, List.map_cons, e1]
    exact he

/-- The same for an impulse response object. -/
theorem C106_histories_impulse_response (m : IRM N (Sc α)) (ops : List (IRM.Op N (Sc α)))
    (h : ∀ k, ∀ hk : k < ops.length, ∀ e,
      (IRM.call R (ops[k]).erase (IRM.after R m.erase ((ops.take k).map IRM.Op.erase))).2 = .error e → ¬ e.kind) :
    IRM.after R m.erase (ops.map IRM.Op.erase) = (IRM.after R.scalars m ops).erase := by
  induction ops generalizing m with
  | nil => rfl
  | cons op ops ih =>
    have h0 := h 0 (Nat.succ_pos _)
    have hc := C106_calls_impulse_response m op h0
    have e1 : ∀ l, IRM.after R m.erase (op.erase :: l) = IRM.after R (IRM.call R.scalars op m).1.erase l := by
      intro l
      show IRM.after R (IRM.call R op.erase m.erase).1 l = _
      rw [hc]
    show IRM.after R m.erase (op.erase :: ops.map IRM.Op.erase) = IRM.erase (IRM.after R.scalars (IRM.call R.scalars op m).1 ops)
    rw [e1]
    refine ih _ fun k hk e he => ?_
    refine h (k + 1) (Nat.succ_lt_succ hk) e ?_
    rw [List.take_succ_cons, List.map_cons, e1]
    exact he

/-- The table `run_scenarios` returns. -/
theorem C106_scenarios :
    (∀ (m : TLM N (Sc α)) (dv : String) (scen : ScmRun (Sc α)) (t : ScmRun α),
      (runScenarios (TLM.variant R) R dv scen.erase m.erase).2 = .ok t →
        ∃ t', (runScenarios (TLM.variant R.scalars) R.scalars dv scen m).2 = .ok t' ∧ t'.erase = t) ∧
    (∀ (m : IRM N (Sc α)) (dv : String) (scen : ScmRun (Sc α)) (t : ScmRun α),
      (runScenarios (IRM.variant R) R dv scen.erase m.erase).2 = .ok t →
        ∃ t', (runScenarios (IRM.variant R.scalars) R.scalars dv scen m).2 = .ok t' ∧ t'.erase = t) := by
  have key : ∀ {σ τ : Type} {er : σ → τ} {x : Py σ (ScmRun (Sc α))} {y : Py τ (ScmRun α)}, PRef er ScmRun.erase x y →
      ∀ s t, (y (er s)).2 = .ok t → ∃ t', (x s).2 = .ok t' ∧ t'.erase = t := by
    intro σ τ er x y h s t ht
    have := puse h s fun e he => by rw [ht] at he; cases he
    rw [this] at ht
    cases hx : (x s).2 with
    | ok t' => rw [hx] at ht; cases ht; exact ⟨t', rfl, rfl⟩
    | error e => rw [hx] at ht; cases ht
  exact ⟨fun m dv scen t => key (pref_runScenarios TLM.vref dv scen) m t,
    fun m dv scen t => key (pref_runScenarios IRM.vref dv scen) m t⟩

/-- With numpy scalars neither division by zero nor a negative square root ever raises: it is enough that `eta` is a
numpy scalar for the conversion of a two-layer object, that `q1` or `q2` is one for the converse, that one of the two
arguments is one for the sensitivity; and, for any call on an impulse response object, however reached, that `q1` or `q2`
and both timescales are. -/
theorem C106_numpy_quiet :
    (∀ m : TLM N (Sc α), m.eta.mag.np = true → m.getImpulseResponseParameters R.scalars ≠ .error .zeroDivision ∧
      m.getImpulseResponseParameters R.scalars ≠ .error .complex) ∧
    (∀ m : IRM N (Sc α), m.q1.mag.np = true ∨ m.q2.mag.np = true →
      m.getTwoLayerParameters R.scalars ≠ .error .zeroDivision) ∧
    (∀ l f : Qty N (Sc α), l.mag.np = true ∨ f.mag.np = true →
      ∃ s, convertLambdaToEcs (.qty l) (.qty f) = .ok s) ∧
    (∀ m : IRM N (Sc α), IRM.Reachable R.scalars m → m.q1.mag.np = true ∨ m.q2.mag.np = true → m.d1.mag.np = true →
      m.d2.mag.np = true → ∀ op, (IRM.call R.scalars op m).2 ≠ .error .zeroDivision ∧
        (IRM.call R.scalars op m).2 ≠ .error .complex) := by
  refine ⟨fun m h => (quiet_getIR m h).2, fun m h => (quiet_getTL m h).2.1, fun l f h => ?_, fun m hm hq h1 h2 op => ?_⟩
  · have := quiet_pyDiv (Qty.neg f).mag l.mag (h.symm.imp_left id)
    have e : ∃ z, pyDiv (Qty.neg f).mag l.mag = .ok z := by
      cases hz : pyDiv (Qty.neg f).mag l.mag with
      | ok z => exact ⟨z, rfl⟩
      | error e =>
        exfalso
        unfold pyDiv at hz
        split at hz
        · cases hz
          exact this.2.1 (by unfold pyDiv; rw [if_pos (by assumption)])
        · cases hz
    obtain ⟨z, hz⟩ := e
    refine ⟨⟨z, f.unit - l.unit⟩, ?_⟩
    show (do let z ← pyDiv (Qty.neg f).mag l.mag; Except.ok _) = _
    rw [hz]; rfl
  · have hc := IRM.Reachable.coherent R.scalars hm
    refine IRM.quiet_call op m ⟨hq, ?_, ?_⟩
    · rw [hc.d1Mag, np_magIn]; exact h1
    · rw [hc.d2Mag, np_magIn]; exact h2
end

/-! ## Examples -/

/-- the default two-layer arguments, `eta` a numpy scalar: constructs the default object; conversion and simulation with
Python numbers succeed, so the theorems above apply -/
example : ∃ x : TLM.Args U0 (Sc XR), x.erase = TLM.defaultArgs U0.reg ∧ ∃ m, TLM.init U0.reg.scalars x = .ok m ∧
    m.eta.mag.np = true ∧ m.du.mag.np = false ∧ m.erase.Phys U0.reg TLPar.default := by
  obtain ⟨m0, h0, hp⟩ := TLM.default_exists U0.lawful
  let f : Arg U0 XR → Bool → Arg U0 (Sc XR) := fun v b => match v with
    | .bare => .bare
    | .qty q => .qty ⟨⟨q.mag, b⟩, q.unit⟩
  let y := TLM.defaultArgs U0.reg
  let x : TLM.Args U0 (Sc XR) :=
    ⟨f y.du false, f y.dl false, f y.lambda0 false, f y.a false, f y.efficacy false, f y.eta true, f y.deltaT false⟩
  have hx : x.erase = TLM.defaultArgs U0.reg := rfl
  have hi := C106_construct (R := U0.reg) |>.1 x
  have hD : U0.reg.scalars.Dimensional :=
    { Dim := U0.lawful.Dim, dim := U0.lawful.dim, compat_iff := U0.lawful.compat_iff, dim_joule := U0.lawful.dim_joule
      dim_year := U0.lawful.dim_year, dim_month := U0.lawful.dim_month }
  have hg : TLM.init U0.reg.scalars x = .ok _ := TLM.init_good hD (Or.inl rfl)
      (Or.inl rfl) (Or.inl rfl) (Or.inl rfl) (Or.inl rfl) (Or.inl rfl) (Or.inl rfl)
  refine ⟨x, hx, _, hg, rfl, rfl, ?_⟩
  rw [hx, h0, hg] at hi
  cases hi
  exact hp

/-- a reachable impulse response object whose parameters are numpy scalars -/
example : ∃ m : IRM U0 (Sc XR), IRM.Reachable U0.reg.scalars m ∧ m.q1.mag.np = true ∧ m.d1.mag.np = true ∧
    m.d2.mag.np = true ∧ m.q2.mag.np = false := by
  have hg := IRM.init_good (R := U0.reg.scalars) (q1 := ⟨⟨.fin 0, true⟩, U0.reg.cwm2⟩) (q2 := ⟨⟨.fin 0, false⟩, U0.reg.cwm2⟩)
    (d1 := ⟨⟨.fin 1, true⟩, U0.reg.yr⟩) (d2 := ⟨⟨.fin 2, true⟩, U0.reg.yr⟩) (ef := ⟨⟨.fin 1, false⟩, U0.reg.one⟩)
    (dt := ⟨⟨.fin 1, false⟩, U0.reg.yr⟩) (Or.inl rfl) (Or.inl rfl) (Or.inl rfl) (Or.inl rfl) (Or.inl rfl) (Or.inl rfl)
  have : Arith.le (⟨.fin 2, true⟩ : Sc XR) ⟨.fin 1, true⟩ = false := by
    show Arith.le (XR.fin 2) (XR.fin 1) = false
    simp
  simp only [Qty.ge, if_true, this] at hg
  exact ⟨_, ⟨_, _, [], hg, rfl⟩, rfl, rfl, rfl, rfl⟩

/-- the kind does make a difference: a zero feedback parameter raises as a Python number and not as a numpy scalar -/
example (f : XR) (u v : Units U0) :
    convertLambdaToEcs (.qty (⟨.fin 0, u⟩ : Qty U0 XR)) (.qty ⟨f, v⟩) = .error .zeroDivision ∧
    ∃ s, convertLambdaToEcs (.qty (⟨⟨.fin 0, true⟩, u⟩ : Qty U0 (Sc XR))) (.qty ⟨⟨f, false⟩, v⟩) = .ok s := by
  constructor
  · simp [convertLambdaToEcs, Qty.div, Qty.neg, pyDiv, bind, Except.bind]
  · exact (C106_numpy_quiet (R := U0.reg)).2.2.1 _ _ (.inl rfl)

end TwoLayer
