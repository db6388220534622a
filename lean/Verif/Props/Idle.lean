import Verif.Props.Ledger

/-!
# C69: objects without drivers, after any history
-/

set_option linter.unusedSimpArgs false
set_option linter.unusedSectionVars false

namespace TwoLayer
variable {N α : Type} [Fintype N] [DecidableEq N] [Arith α] [DecidableEq α] {R : Registry N α}

namespace TLM

/-- all three series of length one with this value -/
def single (x : α) : List (String × String × List α) :=
  [("Surface Temperature|Upper", "delta_degC", [x]), ("Surface Temperature|Lower", "delta_degC", [x]),
    ("Heat Uptake", "W/m^2", [x])]

private def Idle (m : TLM N α) : Prop :=
  m.core.erf = .unset → (m.idx = none ∧ m.outputs = single Arith.nan) ∨ (m.idx ≠ none ∧ m.outputs = single (Arith.dec 0 1))

private theorem step_fresh (m : TLM N α) (hi : m.idx = none) (ho : m.outputs = single Arith.nan) :
    step m = ({ m with idx := some 0, tu := [Arith.dec 0 1], tl := [Arith.dec 0 1], rndt := [Arith.dec 0 1] }, .ok ()) := by
  simp only [outputs, single, List.cons.injEq, Prod.mk.injEq, true_and, and_true] at ho
  obtain ⟨h1, h2, h3⟩ := ho
  simp [step, hi, h1, h2, h3, nextIdx, setAt]

private theorem step_again (m : TLM N α) (hi : m.idx ≠ none) (he : m.core.erfMag = none) :
    (step m).2 = .error (if m.tu.length ≤ (m.idx.getD 0) ∨ m.tl.length ≤ m.idx.getD 0 then .index else .attribute) ∧
      (step m).1 = { m with idx := some (m.idx.getD 0 + 1) } := by
  obtain ⟨k, hk⟩ := Option.ne_none_iff_exists'.mp hi
  rw [hk]
  by_cases h1 : k < m.tu.length
  · by_cases h2 : k < m.tl.length
    · simp [step, hk, nextIdx, getAt, h1, h2, Core.erfAt, he, not_le.mpr h1, not_le.mpr h2]
    · simp [step, hk, nextIdx, getAt, h1, h2, Core.erfAt, he, not_lt.mp h2]
  · simp [step, hk, nextIdx, getAt, h1, Core.erfAt, he, not_lt.mp h1]

private theorem idle_of_rest {m m' : TLM N α} (h : m'.rest = m.rest) (hm : m.Idle) : m'.Idle := by
  simp only [rest, Prod.mk.injEq] at h
  obtain ⟨h1, h2, h3⟩ := h
  unfold Idle
  rw [h1, h2, h3]; exact hm

private theorem stored_idle {set : Arg N α → Py (TLM N α) Unit} {name : String} {u : Units N}
    {upd : Public N α → Qty N α → Public N α} (S : SetterSpec R set name u pub upd rest)
    (hc : ∀ v, Py.Pres (Coherent R) (set v)) (v : Arg N α) :
    Py.Pres (fun m : TLM N α => m.Coherent R ∧ m.Idle) (set v) := by
  rintro m ⟨h1, h2⟩
  refine ⟨hc v m h1, idle_of_rest ?_ h2⟩
  cases v with
  | bare => rw [S.bare]
  | qty q =>
    by_cases h : Convertible R q u
    · obtain ⟨m', e1, -, e3⟩ := S.right m q h
      rw [e1, e3]
    · rw [S.wrong m q h]

private theorem setErf_idle (d : DArg N α) : Py.Pres (fun m : TLM N α => m.Coherent R ∧ m.Idle) (setErf R d) := by
  rintro m ⟨h1, h2⟩
  refine ⟨setErf_pres R d m h1, ?_⟩
  cases d with
  | bare a => exact h2
  | qty a u =>
    simp only [setErf, Py.onCore, Core.setErf]
    split
    · intro h; cases h
    · exact h2

private theorem setDrivers_idle (d : DArg N α) : Py.Pres (fun m : TLM N α => m.Coherent R ∧ m.Idle) (setDrivers R d) := by
  rintro m ⟨h1, h2⟩
  by_cases h : d.dims = 1
  · have : setDrivers R d m = setErf R d m := by
      simp only [setDrivers, setErf, Py.onCore]
      have : Core.setDrivers R d m.core = Core.setErf R d m.core := by
        cases d <;> exact congrFun (if_neg (by simpa [DArg.dims] using h)) _
      rw [this]
    rw [this]; exact setErf_idle d m ⟨h1, h2⟩
  · have : (setDrivers R d m).1 = m := by
      have h2 : Core.setDrivers R d m.core = Py.throw (.assertion "erf must be one-dimensional") m.core := by
        cases d <;> exact congrFun (if_pos h) _
      simp only [setDrivers, Py.onCore, h2]; rfl
    rw [this]; exact ⟨h1, h2⟩

private theorem reset_idle : Py.Pres (fun m : TLM N α => m.Coherent R ∧ m.Idle) (reset (N := N) (α := α)) := by
  rintro m ⟨h1, h2⟩
  refine ⟨reset_pres R m h1, ?_⟩
  unfold reset
  simp only [Py.bind_apply, Py.get_apply]
  split
  · exact h2
  · next hn =>
    have he : m.core.erf ≠ .unset := by intro h; rw [h] at hn; exact hn rfl
    cases m.core.erfMag <;> exact fun h => absurd h he

private theorem step_idle : Py.Pres (fun m : TLM N α => m.Coherent R ∧ m.Idle) (step (N := N) (α := α)) := by
  rintro m ⟨h1, h2⟩
  refine ⟨step_pres R m h1, fun he => ?_⟩
  obtain ⟨v, hv, -, -⟩ := step_frame m h1.lens
  have he' : m.core.erf = .unset := by rw [hv] at he; exact he
  have hm : m.core.erfMag = none := by have := h1.core.erf; rw [he'] at this; exact this
  rcases h2 he' with ⟨a, b⟩ | ⟨a, b⟩
  · rw [step_fresh m a b]
    exact Or.inr ⟨by simp, rfl⟩
  · rw [(step_again m a hm).2]
    exact Or.inr ⟨by simp, b⟩

private theorem run_idle : Py.Pres (fun m : TLM N α => m.Coherent R ∧ m.Idle) (run (N := N) (α := α)) :=
  Py.Pres.get.bind fun _ => step_idle.times _

private theorem call_idle (D : R.Dimensional) (op : Op N α) :
    Py.Pres (fun m : TLM N α => m.Coherent R ∧ m.Idle) (call R op) := by
  obtain ⟨s1, s2, s3, s4, s5, s6, s7⟩ := C11_two_layer D
  cases op with
  | setDu v => exact stored_idle s1 (fun v => call_pres R D (.setDu v)) v
  | setDl v => exact stored_idle s2 (fun v => call_pres R D (.setDl v)) v
  | setLambda0 v => exact stored_idle s3 (fun v => call_pres R D (.setLambda0 v)) v
  | setA v => exact stored_idle s4 (fun v => call_pres R D (.setA v)) v
  | setEfficacy v => exact stored_idle s5 (fun v => call_pres R D (.setEfficacy v)) v
  | setEta v => exact stored_idle s6 (fun v => call_pres R D (.setEta v)) v
  | setDeltaT v => exact stored_idle s7 (fun v => call_pres R D (.setDeltaT v)) v
  | setErf d => exact setErf_idle d
  | setDrivers d => exact setDrivers_idle d
  | reset => exact reset_idle
  | step => exact step_idle
  | run => exact run_idle
  | runScenarios dv scen =>
    exact (runScenarios_pres (variant R) R (fun v => stored_idle s7 (fun v => call_pres R D (.setDeltaT v)) v)
      setDrivers_idle reset_idle run_idle dv scen).bind fun _ => Py.Pres.pure _

private theorem idle (D : R.Dimensional) {m : TLM N α} (hm : Reachable R m) : m.Coherent R ∧ m.Idle := by
  obtain ⟨x, m₀, h, h0, rfl⟩ := hm
  have hi : m₀.Coherent R ∧ m₀.Idle := by
    refine ⟨init_coherent R h0, fun _ => Or.inl ?_⟩
    obtain ⟨du, dl, l, a, ef, et, dt, hx, -, -, -, -, -, -, -, rfl⟩ := init_ok R h0
    exact ⟨rfl, rfl⟩
  clear h0
  induction h generalizing m₀ with
  | nil => exact hi
  | cons op h ih => exact ih _ (call_idle D op m₀ hi)

end TLM

/-- As long as no drivers have been accepted, whatever else was called: `reset()` refuses and changes nothing.  If no step
was made yet all series are a single NaN, and the first `step()` or `run()` turns them into a single zero; after that
every further `step()` or `run()` raises AttributeError or IndexError and leaves the series as they are. -/
theorem C69_always_two_layer (D : R.Dimensional) {m : TLM N α} (hm : TLM.Reachable R m) (he : m.core.erf = .unset) :
    TLM.reset m = (m, .error .modelState) ∧
    ((m.outputs = TLM.single Arith.nan ∧ TLM.run m = TLM.step m ∧ (TLM.step m).2 = .ok () ∧
        (TLM.step m).1.outputs = TLM.single (Arith.dec 0 1)) ∨
      (m.outputs = TLM.single (Arith.dec 0 1) ∧ TLM.run m = TLM.step m ∧
        ((TLM.step m).2 = .error .attribute ∨ (TLM.step m).2 = .error .index) ∧
        (TLM.step m).1.outputs = m.outputs)) := by
  obtain ⟨hc, hi⟩ := TLM.idle D hm
  have hmag : m.core.erfMag = none := by have := hc.core.erf; rw [he] at this; exact this
  have hrun : TLM.run m = TLM.step m := by
    simp only [TLM.run, Py.bind_apply, Py.get_apply, he]
    show Py.times TLM.step 1 m = _
    simp only [Py.times, Py.bind_apply]
    rcases TLM.step m with ⟨_, _ | _⟩ <;> rfl
  refine ⟨by simp [TLM.reset, he, Erf.anyNaN], ?_⟩
  rcases hi he with ⟨a, b⟩ | ⟨a, b⟩
  · refine Or.inl ⟨b, hrun, ?_, ?_⟩ <;> rw [TLM.step_fresh m a b]
    rfl
  · obtain ⟨e1, e2⟩ := TLM.step_again m a hmag
    refine Or.inr ⟨b, hrun, ?_, by rw [e2]; rfl⟩
    rw [e1]
    split
    · exact Or.inr rfl
    · exact Or.inl rfl

namespace IRM
variable (R : Registry N α)

/-- all four series of length one: both boxes and the heat uptake with this value, the total with the sum -/
def single (x : α) : List (String × String × List α) :=
  [("Surface Temperature|Box 1", "delta_degC", [x]), ("Surface Temperature|Box 2", "delta_degC", [x]),
    ("Surface Temperature", "delta_degC", [x + x]), ("Heat Uptake", "W/m^2", [x])]

private def Idle (m : IRM N α) : Prop :=
  m.core.erf = .unset → (m.idx = none ∧ m.outputs = single Arith.nan) ∨ (m.idx ≠ none ∧ m.outputs = single (Arith.dec 0 1))

private theorem step_fresh (m : IRM N α) (hi : m.idx = none) (ho : m.outputs = single Arith.nan) :
    step R m = ({ m with idx := some 0, t1 := [Arith.dec 0 1], t2 := [Arith.dec 0 1], rndt := [Arith.dec 0 1] }, .ok ()) := by
  simp only [outputs, single, List.cons.injEq, Prod.mk.injEq, true_and, and_true] at ho
  obtain ⟨h1, h2, -, h3⟩ := ho
  simp [step, hi, h1, h2, h3, nextIdx, setAt]

private theorem step_again (m : IRM N α) (hi : m.idx ≠ none) (he : m.core.erfMag = none) :
    (step R m).2 = .error (if m.t1.length ≤ (m.idx.getD 0) then .index else .attribute) ∧
      (step R m).1 = { m with idx := some (m.idx.getD 0 + 1) } := by
  obtain ⟨k, hk⟩ := Option.ne_none_iff_exists'.mp hi
  rw [hk]
  by_cases h1 : k < m.t1.length
  · simp [step, hk, nextIdx, getAt, h1, Core.erfAt, he, not_le.mpr h1]
  · simp [step, hk, nextIdx, getAt, h1, Core.erfAt, he, not_lt.mp h1]

variable {R}

private theorem idle_of_rest {m m' : IRM N α} (h : m'.rest = m.rest) (hm : m.Idle) : m'.Idle := by
  simp only [rest, Prod.mk.injEq] at h
  obtain ⟨h1, h2, h3⟩ := h
  unfold Idle
  rw [h1, h2, h3]; exact hm

private theorem stored_idle {set : Arg N α → Py (IRM N α) Unit} {name : String} {u : Units N}
    {upd : Public N α → Qty N α → Public N α} (S : SetterSpec R set name u pub upd rest)
    (hc : ∀ v, Py.Pres (Coherent R) (set v)) (v : Arg N α) :
    Py.Pres (fun m : IRM N α => m.Coherent R ∧ m.Idle) (set v) := by
  rintro m ⟨h1, h2⟩
  refine ⟨hc v m h1, idle_of_rest ?_ h2⟩
  cases v with
  | bare => rw [S.bare]
  | qty q =>
    by_cases h : Convertible R q u
    · obtain ⟨m', e1, -, e3⟩ := S.right m q h
      rw [e1, e3]
    · rw [S.wrong m q h]

private theorem setErf_idle (d : DArg N α) : Py.Pres (fun m : IRM N α => m.Coherent R ∧ m.Idle) (setErf R d) := by
  rintro m ⟨h1, h2⟩
  refine ⟨setErf_pres R d m h1, ?_⟩
  cases d with
  | bare a => exact h2
  | qty a u =>
    simp only [setErf, Py.onCore, Core.setErf]
    split
    · intro h; cases h
    · exact h2

private theorem setDrivers_idle (d : DArg N α) : Py.Pres (fun m : IRM N α => m.Coherent R ∧ m.Idle) (setDrivers R d) := by
  rintro m ⟨h1, h2⟩
  by_cases h : d.dims = 1
  · have : setDrivers R d m = setErf R d m := by
      simp only [setDrivers, setErf, Py.onCore]
      have : Core.setDrivers R d m.core = Core.setErf R d m.core := by
        cases d <;> exact congrFun (if_neg (by simpa [DArg.dims] using h)) _
      rw [this]
    rw [this]; exact setErf_idle d m ⟨h1, h2⟩
  · have : (setDrivers R d m).1 = m := by
      have h2 : Core.setDrivers R d m.core = Py.throw (.assertion "erf must be one-dimensional") m.core := by
        cases d <;> exact congrFun (if_pos h) _
      simp only [setDrivers, Py.onCore, h2]; rfl
    rw [this]; exact ⟨h1, h2⟩

private theorem reset_idle : Py.Pres (fun m : IRM N α => m.Coherent R ∧ m.Idle) (reset (N := N) (α := α)) := by
  rintro m ⟨h1, h2⟩
  refine ⟨reset_pres R m h1, ?_⟩
  unfold reset
  simp only [Py.bind_apply, Py.get_apply]
  split
  · exact h2
  · next hn =>
    have he : m.core.erf ≠ .unset := by intro h; rw [h] at hn; exact hn rfl
    cases m.core.erfMag <;> exact fun h => absurd h he

private theorem step_idle : Py.Pres (fun m : IRM N α => m.Coherent R ∧ m.Idle) (step R) := by
  rintro m ⟨h1, h2⟩
  refine ⟨step_pres R m h1, fun he => ?_⟩
  obtain ⟨v, hv, -, -⟩ := step_frame R m h1.lens
  have he' : m.core.erf = .unset := by rw [hv] at he; exact he
  have hm : m.core.erfMag = none := by have := h1.core.erf; rw [he'] at this; exact this
  rcases h2 he' with ⟨a, b⟩ | ⟨a, b⟩
  · rw [step_fresh R m a b]
    exact Or.inr ⟨by simp, rfl⟩
  · rw [(step_again R m a hm).2]
    exact Or.inr ⟨by simp, b⟩

private theorem run_idle : Py.Pres (fun m : IRM N α => m.Coherent R ∧ m.Idle) (run R) :=
  Py.Pres.get.bind fun _ => step_idle.times _

private theorem call_idle (op : Op N α) : Py.Pres (fun m : IRM N α => m.Coherent R ∧ m.Idle) (call R op) := by
  obtain ⟨s1, s2, s3, s4, s5, s6⟩ := C11_impulse_response R
  cases op with
  | setQ1 v => exact stored_idle s1 (fun v => call_pres R (.setQ1 v)) v
  | setQ2 v => exact stored_idle s2 (fun v => call_pres R (.setQ2 v)) v
  | setD1 v => exact stored_idle s3 (fun v => call_pres R (.setD1 v)) v
  | setD2 v => exact stored_idle s4 (fun v => call_pres R (.setD2 v)) v
  | setEfficacy v => exact stored_idle s5 (fun v => call_pres R (.setEfficacy v)) v
  | setDeltaT v => exact stored_idle s6 (fun v => call_pres R (.setDeltaT v)) v
  | setErf d => exact setErf_idle d
  | setDrivers d => exact setDrivers_idle d
  | reset => exact reset_idle
  | step => exact step_idle
  | run => exact run_idle
  | runScenarios dv scen =>
    exact (runScenarios_pres (variant R) R (fun v => stored_idle s6 (fun v => call_pres R (.setDeltaT v)) v)
      setDrivers_idle reset_idle run_idle dv scen).bind fun _ => Py.Pres.pure _

private theorem idle {m : IRM N α} (hm : Reachable R m) : m.Coherent R ∧ m.Idle := by
  obtain ⟨x, m₀, h, h0, rfl⟩ := hm
  have hi : m₀.Coherent R ∧ m₀.Idle := by
    refine ⟨init_coherent R h0, fun _ => Or.inl ?_⟩
    obtain ⟨q1, q2, d1, d2, ef, dt, -, -, -, -, -, -, -, -, rfl⟩ := init_ok R h0
    exact ⟨rfl, rfl⟩
  clear h0
  induction h generalizing m₀ with
  | nil => exact hi
  | cons op h ih => exact ih _ (call_idle op m₀ hi)

end IRM

/-- The same for the impulse response model, whatever registry the quantities live in. -/
theorem C69_always_impulse_response {m : IRM N α} (hm : IRM.Reachable R m) (he : m.core.erf = .unset) :
    IRM.reset m = (m, .error .modelState) ∧
    ((m.outputs = IRM.single Arith.nan ∧ IRM.run R m = IRM.step R m ∧ (IRM.step R m).2 = .ok () ∧
        (IRM.step R m).1.outputs = IRM.single (Arith.dec 0 1)) ∨
      (m.outputs = IRM.single (Arith.dec 0 1) ∧ IRM.run R m = IRM.step R m ∧
        ((IRM.step R m).2 = .error .attribute ∨ (IRM.step R m).2 = .error .index) ∧
        (IRM.step R m).1.outputs = m.outputs)) := by
  obtain ⟨hc, hi⟩ := IRM.idle hm
  have hmag : m.core.erfMag = none := by have := hc.core.erf; rw [he] at this; exact this
  have hrun : IRM.run R m = IRM.step R m := by
    simp only [IRM.run, Py.bind_apply, Py.get_apply, he]
    show Py.times (IRM.step R) 1 m = _
    simp only [Py.times, Py.bind_apply]
    rcases IRM.step R m with ⟨_, _ | _⟩ <;> rfl
  refine ⟨by simp [IRM.reset, he, Erf.anyNaN], ?_⟩
  rcases hi he with ⟨a, b⟩ | ⟨a, b⟩
  · refine Or.inl ⟨b, hrun, ?_, ?_⟩ <;> rw [IRM.step_fresh R m a b]
    rfl
  · obtain ⟨e1, e2⟩ := IRM.step_again R m a hmag
    refine Or.inr ⟨b, hrun, ?_, by rw [e2]; rfl⟩
    rw [e1]
    split
    · exact Or.inr rfl
    · exact Or.inl rfl

/-- both situations arise: a default object that was stepped twice has no drivers, single zeros, and refuses a third step -/
example : ∃ m : TLM U0 XR, TLM.Reachable U0.reg m ∧ m.core.erf = .unset ∧ m.outputs = TLM.single (.fin 0) ∧
    (TLM.step m).2 = .error .index := by
  have hd : TLM.init U0.reg (TLM.defaultArgs U0.reg) = .ok _ := TLM.init_good U0.lawful.toDimensional (Or.inl rfl)
      (Or.inl rfl) (Or.inl rfl) (Or.inl rfl) (Or.inl rfl) (Or.inl rfl) (Or.inl rfl)
  have hz : (Arith.dec 0 1 : XR) = .fin 0 := by simp [Arith.dec]
  obtain ⟨m₀, h0⟩ : ∃ m₀, TLM.init U0.reg (TLM.defaultArgs U0.reg) = .ok m₀ := ⟨_, hd⟩
  have hi : m₀.idx = none ∧ m₀.outputs = TLM.single Arith.nan ∧ m₀.core.erf = .unset ∧ m₀.core.erfMag = none := by
    obtain ⟨du, dl, l, a, ef, et, dt, hx, -, -, -, -, -, -, -, rfl⟩ := TLM.init_ok _ h0
    exact ⟨rfl, rfl, rfl, rfl⟩
  refine ⟨_, ⟨_, _, [.step, .step], h0, rfl⟩, ?_⟩
  have h1 := TLM.step_fresh m₀ hi.1 hi.2.1
  have h2 := TLM.step_again (TLM.step m₀).1 (by rw [h1]; simp) (by rw [h1]; exact hi.2.2.2)
  have h3 := TLM.step_again (TLM.step (TLM.step m₀).1).1 (by rw [h2.2]; simp) (by rw [h2.2, h1]; exact hi.2.2.2)
  show (TLM.step (TLM.step m₀).1).1.core.erf = _ ∧ (TLM.step (TLM.step m₀).1).1.outputs = _ ∧
    (TLM.step (TLM.step (TLM.step m₀).1).1).2 = _
  rw [h3.1, h2.2, h1]
  exact ⟨hi.2.2.1, by rw [← hz]; rfl, by simp⟩

end TwoLayer
