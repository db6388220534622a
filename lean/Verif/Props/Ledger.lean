import Verif.Spec.Ledger
import Verif.Props.State
import Verif.Props.Scenarios
import Verif.Props.Units

/-!
# C95: what is read back after any history
-/

set_option linter.unusedSimpArgs false
set_option linter.unusedSectionVars false

namespace TwoLayer
variable {N α : Type} [Fintype N] [DecidableEq N] [Arith α] [DecidableEq α] {R : Registry N α}

private theorem stored {σ P Q : Type} {set : Arg N α → Py σ Unit} {name : String} {u : Units N} {pub : σ → P}
    {upd : P → Qty N α → P} {rest : σ → Q} (S : SetterSpec R set name u pub upd rest) (get : P → Qty N α)
    (hget : ∀ p, upd p (get p) = p) (m : σ) (v : Arg N α) :
    ∃ q, Stored R u (get (pub m)) v q ∧ pub (set v m).1 = upd (pub m) q ∧ rest (set v m).1 = rest m := by
  cases v with
  | bare => exact ⟨_, .bare, by rw [S.bare, hget], by rw [S.bare]⟩
  | qty q =>
    by_cases h : Convertible R q u
    · obtain ⟨m', h1, h2, h3⟩ := S.right m q h
      exact ⟨q, .accepted h, by rw [h1, h2], by rw [h1, h3]⟩
    · exact ⟨_, .refused h, by rw [S.wrong m q h, hget], by rw [S.wrong m q h]⟩

theorem Stored.unique {u : Units N} {old q q' : Qty N α} {v : Arg N α} (h : Stored R u old v q) (h' : Stored R u old v q') :
    q = q' := by
  cases h <;> cases h' <;> first | rfl | contradiction

theorem AxisStep.unique {times : List Int} {q q' : Qty N α} (h : AxisStep R times q) (h' : AxisStep R times q') : q = q' := by
  obtain ⟨t, h1, rfl⟩ := (axisStep_iff _ _).mp h
  obtain ⟨t', h1', rfl⟩ := (axisStep_iff _ _).mp h'
  rw [h1] at h1'; cases h1'; rfl

theorem StepOf.unique {dv : String} {scen : ScmRun α} {old q q' : Qty N α} (h : StepOf R dv scen old q)
    (h' : StepOf R dv scen old q') : q = q' := by
  cases h with
  | step a b => cases h' with
    | step _ b' => exact b.unique b'
    | nothing n => exact absurd a n
    | noStep n => exact absurd ⟨_, b⟩ n
  | nothing n => cases h' with
    | step a _ => exact absurd a n
    | _ => rfl
  | noStep n => cases h' with
    | step _ b => exact absurd ⟨_, b⟩ n
    | _ => rfl

private theorem stepOf {σ : Type} {V : Variant N α σ} (L : V.Laws R) {m : σ} (h : L.Inv m) (dv : String) (scen : ScmRun α)
    (get : L.K → Qty N α) (hget : ∀ k, L.withDt k (get k) = k) :
    ∃ q, StepOf R dv scen (get (L.pub m)) q ∧ L.pub (runScenarios V R dv scen m).1 = L.withDt (L.pub m) q := by
  have sel : scen.rows.filter (selects dv) ≠ [] → ∃ r ∈ scen.rows, Selected dv r := by
    intro hne
    obtain ⟨r, hr⟩ := List.exists_mem_of_ne_nil _ hne
    obtain ⟨a, b⟩ := List.mem_filter.mp hr
    exact ⟨r, a, (selects_iff _ _).mp b⟩
  rcases L.runScenarios_spec h dv scen with ⟨a1, a2⟩ | ⟨_, e, a3, a2⟩ | ⟨a1, ts, m₁, a2, a3, a4, a5, ⟨_, a7⟩ | ⟨_, a7, a8, _⟩⟩
  · refine ⟨_, .nothing ?_, by rw [a2, hget]⟩
    rintro ⟨r, hr, hs⟩
    have : r ∈ scen.rows.filter (selects dv) := List.mem_filter.mpr ⟨hr, (selects_iff _ _).mpr hs⟩
    rw [a1] at this; cases this
  · refine ⟨_, .noStep ?_, by rw [a2, hget]⟩
    rintro ⟨dt, hdt⟩
    obtain ⟨ts, h1, -⟩ := (axisStep_iff _ _).mp hdt
    rw [h1] at a3; cases a3
  · exact ⟨_, .step (sel a1) ((axisStep_iff _ _).mpr ⟨ts, a2, rfl⟩), by rw [a7, a5]⟩
  · exact ⟨_, .step (sel a1) ((axisStep_iff _ _).mpr ⟨ts, a2, rfl⟩), by rw [a8, a5]⟩

theorem Ledger.unique {P O : Type} {b : P → O → P → Prop} (hb : ∀ p o q q', b p o q → b p o q' → q = q') {h : List O} :
    ∀ {p q q' : P}, Ledger b p h q → Ledger b p h q' → q = q' := by
  induction h with
  | nil => intro p q q' h1 h2; cases h1; cases h2; rfl
  | cons o h ih =>
    intro p q q' h1 h2
    cases h1 with
    | cons a1 b1 => cases h2 with
      | cons a2 b2 => obtain rfl := hb _ _ _ _ a1 a2; exact ih b1 b2

private theorem core_erf (c : Core N α) (d : DArg N α) : StoredErf R c.erf d (Core.setErf R d c).1.erf := by
  cases d with
  | bare a => exact .bare
  | qty a u =>
    by_cases h : u = R.wm2 ∨ R.compat u R.wm2 = true
    · simp only [Core.setErf, if_pos h]; exact .accepted (convertible_iff.mpr h)
    · simp only [Core.setErf, if_neg h]; exact .refused fun hc => h (convertible_iff.mp hc)

private theorem core_drivers (c : Core N α) (d : DArg N α) : StoredDrivers R c.erf d (Core.setDrivers R d c).1.erf := by
  by_cases h : d.dims = 1
  · have : Core.setDrivers R d c = Core.setErf R d c := by cases d <;> exact congrFun (if_neg (by simpa [DArg.dims] using h)) c
    rw [this]; exact .accepted h (core_erf c d)
  · have : (Core.setDrivers R d c).1 = c := by
      have h2 : Core.setDrivers R d c = Py.throw (.assertion "erf must be one-dimensional") c := by
        cases d <;> exact congrFun (if_pos h) c
      rw [h2]; rfl
    rw [this]; exact .refused h

theorem StoredErf.unique {old e e' : Erf N α} {d : DArg N α} (h : StoredErf R old d e) (h' : StoredErf R old d e') : e = e' := by
  cases h <;> cases h' <;> first | rfl | contradiction

theorem StoredDrivers.unique {old e e' : Erf N α} {d : DArg N α} (h : StoredDrivers R old d e)
    (h' : StoredDrivers R old d e') : e = e' := by
  cases h <;> cases h' <;> first | rfl | contradiction | (rename_i x _ y; exact x.unique y)

/-! ## The two-layer model -/

theorem TLM.becomes (D : R.Dimensional) {m : TLM N α} (hc : m.Coherent R) (op : TLM.Op N α) :
    TLM.Becomes R m.pub op (TLM.call R op m).1.pub := by
  obtain ⟨s1, s2, s3, s4, s5, s6, s7⟩ := C11_two_layer D
  cases op with
  | setDu v =>
    obtain ⟨q, h1, h2, -⟩ := stored s1 (fun p => p.du) (fun _ => rfl) m v
    show TLM.Becomes R m.pub _ (TLM.setDu R v m).1.pub; rw [h2]; exact .du h1
  | setDl v =>
    obtain ⟨q, h1, h2, -⟩ := stored s2 (fun p => p.dl) (fun _ => rfl) m v
    show TLM.Becomes R m.pub _ (TLM.setDl R v m).1.pub; rw [h2]; exact .dl h1
  | setLambda0 v =>
    obtain ⟨q, h1, h2, -⟩ := stored s3 (fun p => p.lambda0) (fun _ => rfl) m v
    show TLM.Becomes R m.pub _ (TLM.setLambda0 R v m).1.pub; rw [h2]; exact .lambda0 h1
  | setA v =>
    obtain ⟨q, h1, h2, -⟩ := stored s4 (fun p => p.a) (fun _ => rfl) m v
    show TLM.Becomes R m.pub _ (TLM.setA R v m).1.pub; rw [h2]; exact .a h1
  | setEfficacy v =>
    obtain ⟨q, h1, h2, -⟩ := stored s5 (fun p => p.efficacy) (fun _ => rfl) m v
    show TLM.Becomes R m.pub _ (TLM.setEfficacy R v m).1.pub; rw [h2]; exact .efficacy h1
  | setEta v =>
    obtain ⟨q, h1, h2, -⟩ := stored s6 (fun p => p.eta) (fun _ => rfl) m v
    show TLM.Becomes R m.pub _ (TLM.setEta R v m).1.pub; rw [h2]; exact .eta h1
  | setDeltaT v =>
    obtain ⟨q, h1, h2, -⟩ := stored s7 (fun p => p.deltaT) (fun _ => rfl) m v
    show TLM.Becomes R m.pub _ (TLM.setDeltaT R v m).1.pub; rw [h2]; exact .deltaT h1
  | setErf d =>
    have : (TLM.call R (.setErf d) m).1.pub = m.pub := by
      show TLM.pub (TLM.setErf R d m).1 = _
      simp only [TLM.setErf, Py.onCore, TLM.pub]
      cases d with
      | bare a => rfl
      | qty a u => simp only [Core.setErf]; split <;> rfl
    rw [this]; exact .setErf
  | setDrivers d =>
    have : (TLM.call R (.setDrivers d) m).1.pub = m.pub := by
      show TLM.pub (TLM.setDrivers R d m).1 = _
      simp only [TLM.setDrivers, Py.onCore, TLM.pub, core_setDrivers_dt R d m.core]
    rw [this]; exact .setDrivers
  | reset =>
    have : (TLM.call R .reset m).1.pub = m.pub := by
      show TLM.pub (TLM.reset m).1 = _
      unfold TLM.reset
      simp only [Py.bind_apply, Py.get_apply]
      split
      · rfl
      · cases m.core.erfMag <;> rfl
    rw [this]; exact .reset
  | step =>
    obtain ⟨v, hv, -, -⟩ := TLM.step_frame m hc.lens
    show TLM.Becomes R m.pub _ (TLM.step m).1.pub
    rw [hv]; exact .step
  | run =>
    have hstep : Py.Pres (fun x : TLM N α => x.Coherent R ∧ x.pub = m.pub) (TLM.step (N := N) (α := α)) := by
      intro x hx
      refine ⟨TLM.step_pres R x hx.1, ?_⟩
      obtain ⟨v, hv, -, -⟩ := TLM.step_frame x hx.1.lens
      rw [hv, ← hx.2]; rfl
    have : Py.Pres (fun x : TLM N α => x.Coherent R ∧ x.pub = m.pub) (TLM.run (N := N) (α := α)) :=
      Py.Pres.get.bind fun _ => hstep.times _
    have h2 := (this m ⟨hc, rfl⟩).2
    show TLM.Becomes R m.pub _ (TLM.run m).1.pub
    rw [h2]; exact .run
  | runScenarios dv scen =>
    obtain ⟨q, h1, h2⟩ := stepOf (TLM.laws D) hc dv scen (fun p => p.deltaT) (fun _ => rfl)
    have : (TLM.call R (.runScenarios dv scen) m).1 = (TwoLayer.runScenarios (TLM.variant R) R dv scen m).1 := by
      simp only [TLM.call, Py.bind_apply]
      rcases TwoLayer.runScenarios (TLM.variant R) R dv scen m with ⟨_, _ | _⟩ <;> rfl
    rw [this]
    replace h2 : ((TwoLayer.runScenarios (TLM.variant R) R dv scen m).1).pub = { m.pub with deltaT := q } := h2
    rw [h2]
    exact .runScenarios h1

/-- After any history of calls on a constructed object, exceptions caught, each public parameter is the last accepted
assignment (or the constructor's argument), and `delta_t` possibly the step of the last time axis run. -/
theorem C95_two_layer (D : R.Dimensional) {p₀ : TLM.Public N α} {m₀ : TLM N α}
    (h₀ : TLM.init R ⟨.qty p₀.du, .qty p₀.dl, .qty p₀.lambda0, .qty p₀.a, .qty p₀.efficacy, .qty p₀.eta, .qty p₀.deltaT⟩ =
      .ok m₀) (h : List (TLM.Op N α)) (p : TLM.Public N α) :
    Ledger (TLM.Becomes R) p₀ h p ↔ (TLM.after R m₀ h).pub = p := by
  have uniq : ∀ p o q q', TLM.Becomes (α := α) R p o q → TLM.Becomes R p o q' → q = q' := by
    intro p o q q' a b
    cases a <;> cases b <;> first | rfl | (rename_i x _ y; rw [x.unique y])
  have key : ∀ (h : List (TLM.Op N α)) (m : TLM N α), m.Coherent R → Ledger (TLM.Becomes R) m.pub h (TLM.after R m h).pub := by
    intro h
    induction h with
    | nil => intro m _; exact .nil
    | cons op h ih =>
      intro m hm
      refine .cons (TLM.becomes D hm op) (ih _ (TLM.call_pres R D op m hm))
  have hp : m₀.pub = p₀ := by
    obtain ⟨du, dl, l, a, ef, et, dt, hx, -, -, -, -, -, -, -, rfl⟩ := TLM.init_ok R h₀
    cases hx; rfl
  have hk := key h m₀ (TLM.init_coherent R h₀)
  rw [hp] at hk
  exact ⟨fun hl => Ledger.unique uniq hk hl, fun e => e ▸ hk⟩


private theorem TLM.becomesErf (D : R.Dimensional) {m : TLM N α} (hc : m.Coherent R) (op : TLM.Op N α)
    (hop : ∀ dv scen, op ≠ .runScenarios dv scen) : TLM.BecomesErf R m.core.erf op (TLM.call R op m).1.core.erf := by
  obtain ⟨s1, s2, s3, s4, s5, s6, s7⟩ := C11_two_layer D
  have other : (∀ d, op ≠ .setErf d) → (∀ d, op ≠ .setDrivers d) → (TLM.call R op m).1.core.erf = m.core.erf →
      TLM.BecomesErf R m.core.erf op (TLM.call R op m).1.core.erf := fun h1 h2 h3 => by rw [h3]; exact .other h1 h2 hop
  cases op with
  | setDu v =>
    obtain ⟨q, -, -, h⟩ := stored s1 (fun p => p.du) (fun _ => rfl) m v
    exact other (by simp) (by simp) (congrArg Prod.fst h)
  | setDl v =>
    obtain ⟨q, -, -, h⟩ := stored s2 (fun p => p.dl) (fun _ => rfl) m v
    exact other (by simp) (by simp) (congrArg Prod.fst h)
  | setLambda0 v =>
    obtain ⟨q, -, -, h⟩ := stored s3 (fun p => p.lambda0) (fun _ => rfl) m v
    exact other (by simp) (by simp) (congrArg Prod.fst h)
  | setA v =>
    obtain ⟨q, -, -, h⟩ := stored s4 (fun p => p.a) (fun _ => rfl) m v
    exact other (by simp) (by simp) (congrArg Prod.fst h)
  | setEfficacy v =>
    obtain ⟨q, -, -, h⟩ := stored s5 (fun p => p.efficacy) (fun _ => rfl) m v
    exact other (by simp) (by simp) (congrArg Prod.fst h)
  | setEta v =>
    obtain ⟨q, -, -, h⟩ := stored s6 (fun p => p.eta) (fun _ => rfl) m v
    exact other (by simp) (by simp) (congrArg Prod.fst h)
  | setDeltaT v =>
    obtain ⟨q, -, -, h⟩ := stored s7 (fun p => p.deltaT) (fun _ => rfl) m v
    exact other (by simp) (by simp) (congrArg Prod.fst h)
  | setErf d => exact .erf (core_erf m.core d)
  | setDrivers d => exact .drivers (core_drivers m.core d)
  | reset =>
    refine other (by simp) (by simp) ?_
    show (TLM.reset m).1.core.erf = _
    unfold TLM.reset
    simp only [Py.bind_apply, Py.get_apply]
    split
    · rfl
    · cases m.core.erfMag <;> rfl
  | step =>
    refine other (by simp) (by simp) ?_
    obtain ⟨v, hv, -, -⟩ := TLM.step_frame m hc.lens
    show (TLM.step m).1.core.erf = _
    rw [hv]; rfl
  | run =>
    refine other (by simp) (by simp) ?_
    have hstep : Py.Pres (fun x : TLM N α => x.Coherent R ∧ x.core.erf = m.core.erf) (TLM.step (N := N) (α := α)) := by
      intro x hx
      refine ⟨TLM.step_pres R x hx.1, ?_⟩
      obtain ⟨v, hv, -, -⟩ := TLM.step_frame x hx.1.lens
      rw [hv, ← hx.2]; rfl
    have : Py.Pres (fun x : TLM N α => x.Coherent R ∧ x.core.erf = m.core.erf) (TLM.run (N := N) (α := α)) :=
      Py.Pres.get.bind fun _ => hstep.times _
    exact (this m ⟨hc, rfl⟩).2
  | runScenarios dv scen => exact absurd rfl (hop dv scen)

/-- After any history of calls other than `run_scenarios`, the drivers are the last accepted ones, or still unset. -/
theorem C95_drivers_two_layer (D : R.Dimensional) {x : TLM.Args N α} {m₀ : TLM N α} (h₀ : TLM.init R x = .ok m₀)
    (h : List (TLM.Op N α)) (hh : ∀ op ∈ h, ∀ dv scen, op ≠ .runScenarios dv scen) (e : Erf N α) :
    Ledger (TLM.BecomesErf R) .unset h e ↔ (TLM.after R m₀ h).core.erf = e := by
  have uniq : ∀ p o q q', TLM.BecomesErf (α := α) R p o q → TLM.BecomesErf R p o q' → q = q' := by
    intro p o q q' a b
    cases a with
    | erf a => cases b with
      | erf b => exact a.unique b
      | other h => exact absurd rfl (h _)
    | drivers a => cases b with
      | drivers b => exact a.unique b
      | other _ h => exact absurd rfl (h _)
    | other h1 h2 => cases b with
      | erf b => exact absurd rfl (h1 _)
      | drivers b => exact absurd rfl (h2 _)
      | other => rfl
  have key : ∀ (h : List (TLM.Op N α)) (m : TLM N α), (∀ op ∈ h, ∀ dv scen, op ≠ .runScenarios dv scen) → m.Coherent R →
      Ledger (TLM.BecomesErf R) m.core.erf h (TLM.after R m h).core.erf := by
    intro h
    induction h with
    | nil => intro m _ _; exact .nil
    | cons op h ih =>
      intro m hm hc
      exact .cons (TLM.becomesErf D hc op (hm op (by simp))) (ih _ (fun o ho => hm o (by simp [ho])) (TLM.call_pres R D op m hc))
  have hp : m₀.core.erf = .unset := by
    obtain ⟨du, dl, l, a, ef, et, dt, hx, -, -, -, -, -, -, -, rfl⟩ := TLM.init_ok R h₀
    rfl
  have hk := key h m₀ hh (TLM.init_coherent R h₀)
  rw [hp] at hk
  exact ⟨fun hl => Ledger.unique uniq hk hl, fun e => e ▸ hk⟩


/-! ## The impulse response model -/

theorem IRM.becomes (D : R.Dimensional) {m : IRM N α} (hc : m.Coherent R) (op : IRM.Op N α) :
    IRM.Becomes R m.pub op (IRM.call R op m).1.pub := by
  obtain ⟨s1, s2, s3, s4, s5, s6⟩ := C11_impulse_response R
  cases op with
  | setQ1 v =>
    obtain ⟨q, h1, h2, -⟩ := stored s1 (fun p => p.q1) (fun _ => rfl) m v
    show IRM.Becomes R m.pub _ (IRM.setQ1 R v m).1.pub; rw [h2]; exact .q1 h1
  | setQ2 v =>
    obtain ⟨q, h1, h2, -⟩ := stored s2 (fun p => p.q2) (fun _ => rfl) m v
    show IRM.Becomes R m.pub _ (IRM.setQ2 R v m).1.pub; rw [h2]; exact .q2 h1
  | setD1 v =>
    obtain ⟨q, h1, h2, -⟩ := stored s3 (fun p => p.d1) (fun _ => rfl) m v
    show IRM.Becomes R m.pub _ (IRM.setD1 R v m).1.pub; rw [h2]; exact .d1 h1
  | setD2 v =>
    obtain ⟨q, h1, h2, -⟩ := stored s4 (fun p => p.d2) (fun _ => rfl) m v
    show IRM.Becomes R m.pub _ (IRM.setD2 R v m).1.pub; rw [h2]; exact .d2 h1
  | setEfficacy v =>
    obtain ⟨q, h1, h2, -⟩ := stored s5 (fun p => p.efficacy) (fun _ => rfl) m v
    show IRM.Becomes R m.pub _ (IRM.setEfficacy R v m).1.pub; rw [h2]; exact .efficacy h1
  | setDeltaT v =>
    obtain ⟨q, h1, h2, -⟩ := stored s6 (fun p => p.deltaT) (fun _ => rfl) m v
    show IRM.Becomes R m.pub _ (IRM.setDeltaT R v m).1.pub; rw [h2]; exact .deltaT h1
  | setErf d =>
    have : (IRM.call R (.setErf d) m).1.pub = m.pub := by
      show IRM.pub (IRM.setErf R d m).1 = _
      simp only [IRM.setErf, Py.onCore, IRM.pub]
      cases d with
      | bare a => rfl
      | qty a u => simp only [Core.setErf]; split <;> rfl
    rw [this]; exact .setErf
  | setDrivers d =>
    have : (IRM.call R (.setDrivers d) m).1.pub = m.pub := by
      show IRM.pub (IRM.setDrivers R d m).1 = _
      simp only [IRM.setDrivers, Py.onCore, IRM.pub, core_setDrivers_dt R d m.core]
    rw [this]; exact .setDrivers
  | reset =>
    have : (IRM.call R .reset m).1.pub = m.pub := by
      show IRM.pub (IRM.reset m).1 = _
      unfold IRM.reset
      simp only [Py.bind_apply, Py.get_apply]
      split
      · rfl
      · cases m.core.erfMag <;> rfl
    rw [this]; exact .reset
  | step =>
    obtain ⟨v, hv, -, -⟩ := IRM.step_frame R m hc.lens
    show IRM.Becomes R m.pub _ (IRM.step R m).1.pub
    rw [hv]; exact .step
  | run =>
    have hstep : Py.Pres (fun x : IRM N α => x.Coherent R ∧ x.pub = m.pub) (IRM.step R) := by
      intro x hx
      refine ⟨IRM.step_pres R x hx.1, ?_⟩
      obtain ⟨v, hv, -, -⟩ := IRM.step_frame R x hx.1.lens
      rw [hv, ← hx.2]; rfl
    have : Py.Pres (fun x : IRM N α => x.Coherent R ∧ x.pub = m.pub) (IRM.run R) :=
      Py.Pres.get.bind fun _ => hstep.times _
    have h2 := (this m ⟨hc, rfl⟩).2
    show IRM.Becomes R m.pub _ (IRM.run R m).1.pub
    rw [h2]; exact .run
  | runScenarios dv scen =>
    obtain ⟨q, h1, h2⟩ := stepOf (IRM.laws D) hc dv scen (fun p => p.deltaT) (fun _ => rfl)
    have : (IRM.call R (.runScenarios dv scen) m).1 = (TwoLayer.runScenarios (IRM.variant R) R dv scen m).1 := by
      simp only [IRM.call, Py.bind_apply]
      rcases TwoLayer.runScenarios (IRM.variant R) R dv scen m with ⟨_, _ | _⟩ <;> rfl
    rw [this]
    replace h2 : ((TwoLayer.runScenarios (IRM.variant R) R dv scen m).1).pub = { m.pub with deltaT := q } := h2
    rw [h2]
    exact .runScenarios h1

/-- After any history of calls on a constructed object, exceptions caught, each public parameter is the last accepted
assignment (or the constructor's argument), and `delta_t` possibly the step of the last time axis run. -/
theorem C95_impulse_response (D : R.Dimensional) {p₀ : IRM.Public N α} {m₀ : IRM N α}
    (h₀ : IRM.init R ⟨.qty p₀.q1, .qty p₀.q2, .qty p₀.d1, .qty p₀.d2, .qty p₀.efficacy, .qty p₀.deltaT⟩ =
      .ok m₀) (h : List (IRM.Op N α)) (p : IRM.Public N α) :
    Ledger (IRM.Becomes R) p₀ h p ↔ (IRM.after R m₀ h).pub = p := by
  have uniq : ∀ p o q q', IRM.Becomes (α := α) R p o q → IRM.Becomes R p o q' → q = q' := by
    intro p o q q' a b
    cases a <;> cases b <;> first | rfl | (rename_i x _ y; rw [x.unique y])
  have key : ∀ (h : List (IRM.Op N α)) (m : IRM N α), m.Coherent R → Ledger (IRM.Becomes R) m.pub h (IRM.after R m h).pub := by
    intro h
    induction h with
    | nil => intro m _; exact .nil
    | cons op h ih =>
      intro m hm
      refine .cons (IRM.becomes D hm op) (ih _ (IRM.call_pres R op m hm))
  have hp : m₀.pub = p₀ := by
    obtain ⟨q1, q2, d1, d2, ef, dt, hx, -, -, -, -, -, -, -, rfl⟩ := IRM.init_ok R h₀
    cases hx; rfl
  have hk := key h m₀ (IRM.init_coherent R h₀)
  rw [hp] at hk
  exact ⟨fun hl => Ledger.unique uniq hk hl, fun e => e ▸ hk⟩


private theorem IRM.becomesErf (D : R.Dimensional) {m : IRM N α} (hc : m.Coherent R) (op : IRM.Op N α)
    (hop : ∀ dv scen, op ≠ .runScenarios dv scen) : IRM.BecomesErf R m.core.erf op (IRM.call R op m).1.core.erf := by
  obtain ⟨s1, s2, s3, s4, s5, s6⟩ := C11_impulse_response R
  have other : (∀ d, op ≠ .setErf d) → (∀ d, op ≠ .setDrivers d) → (IRM.call R op m).1.core.erf = m.core.erf →
      IRM.BecomesErf R m.core.erf op (IRM.call R op m).1.core.erf := fun h1 h2 h3 => by rw [h3]; exact .other h1 h2 hop
  cases op with
  | setQ1 v =>
    obtain ⟨q, -, -, h⟩ := stored s1 (fun p => p.q1) (fun _ => rfl) m v
    exact other (by simp) (by simp) (congrArg Prod.fst h)
  | setQ2 v =>
    obtain ⟨q, -, -, h⟩ := stored s2 (fun p => p.q2) (fun _ => rfl) m v
    exact other (by simp) (by simp) (congrArg Prod.fst h)
  | setD1 v =>
    obtain ⟨q, -, -, h⟩ := stored s3 (fun p => p.d1) (fun _ => rfl) m v
    exact other (by simp) (by simp) (congrArg Prod.fst h)
  | setD2 v =>
    obtain ⟨q, -, -, h⟩ := stored s4 (fun p => p.d2) (fun _ => rfl) m v
    exact other (by simp) (by simp) (congrArg Prod.fst h)
  | setEfficacy v =>
    obtain ⟨q, -, -, h⟩ := stored s5 (fun p => p.efficacy) (fun _ => rfl) m v
    exact other (by simp) (by simp) (congrArg Prod.fst h)
  | setDeltaT v =>
    obtain ⟨q, -, -, h⟩ := stored s6 (fun p => p.deltaT) (fun _ => rfl) m v
    exact other (by simp) (by simp) (congrArg Prod.fst h)
  | setErf d => exact .erf (core_erf m.core d)
  | setDrivers d => exact .drivers (core_drivers m.core d)
  | reset =>
    refine other (by simp) (by simp) ?_
    show (IRM.reset m).1.core.erf = _
    unfold IRM.reset
    simp only [Py.bind_apply, Py.get_apply]
    split
    · rfl
    · cases m.core.erfMag <;> rfl
  | step =>
    refine other (by simp) (by simp) ?_
    obtain ⟨v, hv, -, -⟩ := IRM.step_frame R m hc.lens
    show (IRM.step R m).1.core.erf = _
    rw [hv]; rfl
  | run =>
    refine other (by simp) (by simp) ?_
    have hstep : Py.Pres (fun x : IRM N α => x.Coherent R ∧ x.core.erf = m.core.erf) (IRM.step R) := by
      intro x hx
      refine ⟨IRM.step_pres R x hx.1, ?_⟩
      obtain ⟨v, hv, -, -⟩ := IRM.step_frame R x hx.1.lens
      rw [hv, ← hx.2]; rfl
    have : Py.Pres (fun x : IRM N α => x.Coherent R ∧ x.core.erf = m.core.erf) (IRM.run R) :=
      Py.Pres.get.bind fun _ => hstep.times _
    exact (this m ⟨hc, rfl⟩).2
  | runScenarios dv scen => exact absurd rfl (hop dv scen)

/-- After any history of calls other than `run_scenarios`, the drivers are the last accepted ones, or still unset. -/
theorem C95_drivers_impulse_response (D : R.Dimensional) {x : IRM.Args N α} {m₀ : IRM N α} (h₀ : IRM.init R x = .ok m₀)
    (h : List (IRM.Op N α)) (hh : ∀ op ∈ h, ∀ dv scen, op ≠ .runScenarios dv scen) (e : Erf N α) :
    Ledger (IRM.BecomesErf R) .unset h e ↔ (IRM.after R m₀ h).core.erf = e := by
  have uniq : ∀ p o q q', IRM.BecomesErf (α := α) R p o q → IRM.BecomesErf R p o q' → q = q' := by
    intro p o q q' a b
    cases a with
    | erf a => cases b with
      | erf b => exact a.unique b
      | other h => exact absurd rfl (h _)
    | drivers a => cases b with
      | drivers b => exact a.unique b
      | other _ h => exact absurd rfl (h _)
    | other h1 h2 => cases b with
      | erf b => exact absurd rfl (h1 _)
      | drivers b => exact absurd rfl (h2 _)
      | other => rfl
  have key : ∀ (h : List (IRM.Op N α)) (m : IRM N α), (∀ op ∈ h, ∀ dv scen, op ≠ .runScenarios dv scen) → m.Coherent R →
      Ledger (IRM.BecomesErf R) m.core.erf h (IRM.after R m h).core.erf := by
    intro h
    induction h with
    | nil => intro m _ _; exact .nil
    | cons op h ih =>
      intro m hm hc
      exact .cons (IRM.becomesErf D hc op (hm op (by simp))) (ih _ (fun o ho => hm o (by simp [ho])) (IRM.call_pres R op m hc))
  have hp : m₀.core.erf = .unset := by
    obtain ⟨q1, q2, d1, d2, ef, dt, hx, -, -, -, -, -, -, -, rfl⟩ := IRM.init_ok R h₀
    rfl
  have hk := key h m₀ hh (IRM.init_coherent R h₀)
  rw [hp] at hk
  exact ⟨fun hl => Ledger.unique uniq hk hl, fun e => e ▸ hk⟩

/-- Concrete case: a constructed object with an accepted, a bare and a dimensionally wrong assignment, drivers in kW/m² and
a `run`; only `du` and the drivers have changed. -/
example : ∃ (p₀ : TLM.Public U0 XR) (m₀ : TLM U0 XR) (h : List (TLM.Op U0 XR)),
    TLM.init U0.reg ⟨.qty p₀.du, .qty p₀.dl, .qty p₀.lambda0, .qty p₀.a, .qty p₀.efficacy, .qty p₀.eta, .qty p₀.deltaT⟩ =
      .ok m₀ ∧ h.length = 5 ∧ Ledger (TLM.Becomes U0.reg) p₀ h { p₀ with du := ⟨.fin 1, u1 U0.kilometer⟩ } ∧
    Ledger (TLM.BecomesErf U0.reg) .unset h (.set [.fin 1] U0.kwU) := by
  obtain ⟨m, h, -⟩ := TLM.default_exists U0.lawful
  have hd : TLM.init U0.reg (TLM.defaultArgs U0.reg) = .ok _ := TLM.init_good U0.lawful.toDimensional (Or.inl rfl)
      (Or.inl rfl) (Or.inl rfl) (Or.inl rfl) (Or.inl rfl) (Or.inl rfl) (Or.inl rfl)
  have hkm : Convertible U0.reg ⟨.fin 1, u1 U0.kilometer⟩ U0.reg.m := ⟨_, U0.km_num 1⟩
  have hkw : Convertible U0.reg ⟨Arith.nan, U0.kwU⟩ U0.reg.wm2 := by
    have hx : Convertible U0.reg ⟨.fin 1, U0.kwU⟩ U0.reg.wm2 := ⟨_, U0.kw_num 1⟩
    have hy := convertible_iff.mp hx
    exact convertible_iff.mpr hy
  have hbad : ¬ Convertible U0.reg ⟨.fin 2, U0.reg.m⟩ U0.reg.wm2c := by
    intro hc
    have := (U0.lawful.unitOk_iff _ _).mp (convertible_iff.mp hc)
    have h3 := congrFun this (0 : Fin 4)
    have e1 : U0.lawful.dm U0.reg.m (0 : Fin 4) = 1 := by
      show U0.lawful.dm (u1 U0.meter) (0 : Fin 4) = 1
      rw [U0.dm_u1]; rfl
    have e2 : U0.lawful.dm U0.reg.wm2c (0 : Fin 4) = 0 := by
      have : U0.reg.wm2c = u1 U0.watt - (2 : ℚ) • u1 U0.meter - u1 U0.ddegC := rfl
      rw [this]
      show dimOf U0.dim _ _ = _
      rw [dimOf_sub, dimOf_sub, dimOf_smul, dimOf_u1, dimOf_u1, dimOf_u1]
      norm_num [U0.dim]
    rw [e1, e2] at h3
    exact one_ne_zero h3
  refine ⟨⟨_, _, _, _, _, _, _⟩, _, [.setDu (.qty ⟨.fin 1, u1 U0.kilometer⟩), .setDu .bare, .setEta (.qty ⟨.fin 2, U0.reg.m⟩),
    .setDrivers (.qty ⟨1, [.fin 1]⟩ U0.kwU), .run], hd, rfl, ?_, ?_⟩
  · exact .cons (.du (.accepted hkm)) (.cons (.du .bare) (.cons (.eta (.refused hbad)) (.cons .setDrivers (.cons .run .nil))))
  · exact .cons (.other (by simp) (by simp) (by simp)) (.cons (.other (by simp) (by simp) (by simp))
      (.cons (.other (by simp) (by simp) (by simp)) (.cons (.drivers (.accepted rfl (.accepted hkw)))
        (.cons (.other (by simp) (by simp) (by simp)) .nil))))

end TwoLayer
