import Verif.Props.State

/-!
# C69, C76: fresh objects, and constructions that fail
-/

set_option linter.unusedSimpArgs false
set_option linter.unusedSectionVars false

namespace TwoLayer
variable {N α : Type} [Fintype N] [DecidableEq N] [Arith α]

/-! ## C69 Running without drivers -/

/-- A fresh `TwoLayerModel` on which `run()` is called before any drivers are set does not raise: it reports one zero
per series.  `reset()` refuses, and a second `run()` (or a `step()`) raises AttributeError. -/
theorem C69_two_layer {R : Registry N α} {x : TLM.Args N α} {m : TLM N α} (h : TLM.init R x = .ok m) :
    ∃ m', TLM.run m = (m', .ok ()) ∧
      m'.outputs = [("Surface Temperature|Upper", "delta_degC", [Arith.dec 0 1]),
        ("Surface Temperature|Lower", "delta_degC", [Arith.dec 0 1]), ("Heat Uptake", "W/m^2", [Arith.dec 0 1])] ∧
      (TLM.run m').2 = .error .attribute ∧ (TLM.step m').2 = .error .attribute ∧
      (TLM.reset m).2 = .error .modelState ∧ (TLM.reset m').2 = .error .modelState := by
  obtain ⟨du, dl, l, a, ef, et, dt, rfl, -, -, -, -, -, -, -, rfl⟩ := TLM.init_ok R h
  refine ⟨_, rfl, rfl, rfl, rfl, rfl, rfl⟩

/-- The same for a fresh `ImpulseResponseModel`. -/
theorem C69_impulse_response {R : Registry N α} {x : IRM.Args N α} {m : IRM N α} (h : IRM.init R x = .ok m) :
    ∃ m', IRM.run R m = (m', .ok ()) ∧
      m'.outputs = [("Surface Temperature|Box 1", "delta_degC", [Arith.dec 0 1]),
        ("Surface Temperature|Box 2", "delta_degC", [Arith.dec 0 1]),
        ("Surface Temperature", "delta_degC", [Arith.dec 0 1 + Arith.dec 0 1]), ("Heat Uptake", "W/m^2", [Arith.dec 0 1])] ∧
      (IRM.run R m').2 = .error .attribute ∧ (IRM.step R m').2 = .error .attribute ∧
      (IRM.reset m).2 = .error .modelState ∧ (IRM.reset m').2 = .error .modelState := by
  obtain ⟨q1, q2, d1, d2, ef, dt, rfl, -, -, -, -, -, -, -, rfl⟩ := IRM.init_ok R h
  refine ⟨_, rfl, rfl, rfl, rfl, rfl, rfl⟩

/-! ## C76 What a failing constructor says -/

theorem checkQty_cases (R : Registry N α) (v : Arg N α) (name : String) (u : Units N) :
    (v = .bare ∧ checkQty R v name u = .error (.typeError name)) ∨
    (∃ q, v = .qty q ∧ ¬ Convertible R q u ∧ checkQty R v name u = .error (.unitError name)) ∨
    (∃ q, v = .qty q ∧ Convertible R q u ∧ checkQty R v name u = .ok q) := by
  cases v with
  | bare => exact .inl ⟨rfl, checkQty_bare⟩
  | qty q =>
    by_cases h : Convertible R q u
    · exact .inr (.inr ⟨q, rfl, h, checkQty_ok.mpr ⟨rfl, convertible_iff.mp h⟩⟩)
    · exact .inr (.inl ⟨q, rfl, h, checkQty_bad fun h' => h (convertible_iff.mpr h')⟩)

theorem complaint_nil {R : Registry N α} {e : Err} : ¬ Complaint R [] e := by rintro ⟨⟩

theorem complaint_cons {R : Registry N α} {v : Arg N α} {name : String} {u : Units N} {rest e} :
    Complaint R ((v, name, u) :: rest) e ↔ checkQty R v name u = .error e ∨
      (∃ q, checkQty R v name u = .ok q) ∧ Complaint R rest e := by
  constructor
  · intro h
    cases h with
    | bare => exact .inl checkQty_bare
    | unit h => exact .inl (checkQty_bad fun h' => h (convertible_iff.mpr h'))
    | next h1 h2 => exact .inr ⟨⟨_, checkQty_ok.mpr ⟨rfl, convertible_iff.mp h1⟩⟩, h2⟩
  · rcases checkQty_cases R v name u with ⟨rfl, h⟩ | ⟨q, rfl, h, h'⟩ | ⟨q, rfl, h, h'⟩
    · rintro (h1 | ⟨⟨q, h1⟩, -⟩)
      · rw [h] at h1; cases h1; exact .bare
      · rw [h] at h1; cases h1
    · rintro (h1 | ⟨⟨q, h1⟩, -⟩)
      · rw [h'] at h1; cases h1; exact .unit h
      · rw [h'] at h1; cases h1
    · rintro (h1 | ⟨-, h1⟩)
      · rw [h'] at h1; cases h1
      · exact .next h h1

theorem hc_ok {R : Registry N α} (D : R.Dimensional) {v : Arg N α} {name : String} {q : Qty N α}
    (h : checkQty R v name R.m = .ok q) : ∃ y, (TLM.heatCapacityOf R q).toUnit R R.jm2c = .ok y :=
  ⟨_, toUnit_ok (D.heat_ok (checkQty_ok.mp h).2)⟩

/-- `TwoLayerModel(...)` raises exactly when an argument is unacceptable, and then the exception is about the first
such argument, in the order `du, dl, lambda0, a, efficacy, eta, delta_t`. -/
theorem C76_two_layer {R : Registry N α} (D : R.Dimensional) (x : TLM.Args N α) (e : Err) :
    TLM.init R x = .error e ↔ Complaint R [(x.du, "du", R.m), (x.dl, "dl", R.m), (x.lambda0, "lambda0", R.wm2c),
      (x.a, "a", R.wm2cc), (x.efficacy, "efficacy", R.one), (x.eta, "eta", R.wm2c), (x.deltaT, "delta_t", R.s)] e := by
  simp only [complaint_cons, TLM.init, bind, Except.bind, pure, Except.pure, complaint_nil, and_false, or_false]
  cases h1 : checkQty R x.du "du" R.m with
  | error _ => simp
  | ok du =>
  obtain ⟨y1, g1⟩ := hc_ok D h1
  cases h2 : checkQty R x.dl "dl" R.m with
  | error _ => simp [g1]
  | ok dl =>
  obtain ⟨y2, g2⟩ := hc_ok D h2
  cases h3 : checkQty R x.lambda0 "lambda0" R.wm2c with
  | error _ => simp [g1, g2]
  | ok _ =>
  cases h4 : checkQty R x.a "a" R.wm2cc with
  | error _ => simp [g1, g2]
  | ok _ =>
  cases h5 : checkQty R x.efficacy "efficacy" R.one with
  | error _ => simp [g1, g2]
  | ok _ =>
  cases h6 : checkQty R x.eta "eta" R.wm2c with
  | error _ => simp [g1, g2]
  | ok _ =>
  cases h7 : checkQty R x.deltaT "delta_t" R.s with
  | error _ => simp [g1, g2]
  | ok _ => simp [g1, g2]

/-- `ImpulseResponseModel(...)` raises exactly when an argument is unacceptable (exception about the first such
argument, in the order `q1, q2, d1, d2, efficacy, delta_t`) or when all are acceptable and `d1 >= d2` (ValueError). -/
theorem C76_impulse_response {R : Registry N α} (D : R.Dimensional) (x : IRM.Args N α) (e : Err) :
    IRM.init R x = .error e ↔
      Complaint R [(x.q1, "q1", R.cwm2), (x.q2, "q2", R.cwm2), (x.d1, "d1", R.yr), (x.d2, "d2", R.yr),
        (x.efficacy, "efficacy", R.one), (x.deltaT, "delta_t", R.yr)] e ∨
      ∃ q1 q2 d1 d2 ef dt, x = ⟨.qty q1, .qty q2, .qty d1, .qty d2, .qty ef, .qty dt⟩ ∧
        Convertible R q1 R.cwm2 ∧ Convertible R q2 R.cwm2 ∧ Convertible R d1 R.yr ∧ Convertible R d2 R.yr ∧
        Convertible R ef R.one ∧ Convertible R dt R.yr ∧ d1.ge R d2 = .ok true ∧
        e = .value "The short-timescale must be d1" := by
  obtain ⟨vq1, vq2, vd1, vd2, vef, vdt⟩ := x
  simp only [complaint_cons, IRM.init, bind, Except.bind, pure, Except.pure, complaint_nil, and_false, or_false]
  rcases checkQty_cases R vq1 "q1" R.cwm2 with ⟨rfl, h1⟩ | ⟨q1, rfl, c1, h1⟩ | ⟨q1, rfl, c1, h1⟩ <;> rw [h1]
  · simp
  · simp; rintro _ _ _ _ _ rfl; simp [c1]
  rcases checkQty_cases R vq2 "q2" R.cwm2 with ⟨rfl, h2⟩ | ⟨q2, rfl, c2, h2⟩ | ⟨q2, rfl, c2, h2⟩ <;> rw [h2]
  · simp
  · simp [c1, c2]
  rcases checkQty_cases R vd1 "d1" R.yr with ⟨rfl, h3⟩ | ⟨d1, rfl, c3, h3⟩ | ⟨d1, rfl, c3, h3⟩ <;> rw [h3]
  · simp
  · simp [c1, c2, c3]
  rcases checkQty_cases R vd2 "d2" R.yr with ⟨rfl, h4⟩ | ⟨d2, rfl, c4, h4⟩ | ⟨d2, rfl, c4, h4⟩ <;> rw [h4]
  · simp
  · simp [c1, c2, c3, c4]
  rcases checkQty_cases R vef "efficacy" R.one with ⟨rfl, h5⟩ | ⟨ef, rfl, c5, h5⟩ | ⟨ef, rfl, c5, h5⟩ <;> rw [h5]
  · simp
  · simp [c1, c2, c3, c4, c5]
  rcases checkQty_cases R vdt "delta_t" R.yr with ⟨rfl, h6⟩ | ⟨dt, rfl, c6, h6⟩ | ⟨dt, rfl, c6, h6⟩ <;> rw [h6]
  · simp
  · simp [c1, c2, c3, c4, c5, c6]
  have hge : ∃ b, d1.ge R d2 = .ok b := by
    unfold Qty.ge
    split
    · exact ⟨_, rfl⟩
    · rw [if_pos]
      · exact ⟨_, rfl⟩
      · rw [D.compat_iff]
        have a := convertible_iff.mp c3
        have b := convertible_iff.mp c4
        have k : ∀ {u}, UnitOk R u R.yr → dimOf D.dim u = dimOf D.dim R.yr := by
          rintro u (rfl | h)
          · rfl
          · exact (D.compat_iff _ _).mp h
        rw [k a, k b]
  obtain ⟨b, hb⟩ := hge
  cases b <;> simp [hb, c1, c2, c3, c4, c5, c6, eq_comm]

/-- A plain number for `dl` and a wrong unit for `eta`: the complaint is about `dl`; with `dl` corrected it is about
`eta`. -/
example : Complaint U0.reg [(Arg.qty ⟨XR.fin 50, U0.reg.m⟩, "du", U0.reg.m), (.bare, "dl", U0.reg.m),
    (.qty ⟨.fin 1, U0.reg.yr⟩, "eta", U0.reg.wm2c)] (.typeError "dl") :=
  .next (convertible_iff.mpr (Or.inl rfl)) .bare

end TwoLayer
