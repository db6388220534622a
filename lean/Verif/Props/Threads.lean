import Verif.Proofs.Threads
import Verif.Props.Interrupt

/-!
# C117: threads

`Tr.threads`, `separate`, `shared`, `Kind.session`, `TLM.session`, `IRM.session` are in `Spec/Threads.lean`.  A schedule is any
list of threads; since it can end anywhere, what is shown of the end of a schedule holds at every moment.
-/

set_option linter.unusedSimpArgs false
set_option linter.unusedSectionVars false

namespace TwoLayer
variable {N α ι : Type} [Fintype N] [DecidableEq N] [Arith α] [DecidableEq α] [DecidableEq ι]

/-- **C117** (an object per thread).  However many threads, whatever the classes and states of their objects, whatever calls they
make and however they are scheduled: a thread that has come to its end has got from every call what the call returns or raises
without other threads, and its object is what these calls alone leave; and every thread comes to its end after finitely many
turns, whatever the others do. -/
theorem C117_separate (R : Registry N α) (kind : ι → Kind) (ops : ∀ i, List ((kind i).Op N α)) (objs : ∀ i, (kind i).Obj N α) :
    (∀ sched i r, (Tr.threads (separate R kind ops, objs) sched).1 i = .done r →
      r = .ok ((kind i).session R (ops i) (objs i)).2 ∧
      (Tr.threads (separate R kind ops, objs) sched).2 i = ((kind i).session R (ops i) (objs i)).1) ∧
    ∀ i, ∃ n, ∀ sched, n ≤ sched.count i → ∃ r, (Tr.threads (separate R kind ops, objs) sched).1 i = .done r := by
  refine ⟨fun sched i r h => ?_, fun i => ?_⟩
  · unfold separate at h ⊢
    rw [Tr.threads_separate] at h ⊢
    have hw := Tr.turns_whole (sched.count i) ((kind i).thread R (ops i), objs i)
    simp only [Kind.whole_thread] at hw h ⊢
    generalize Tr.turn^[sched.count i] ((kind i).thread R (ops i), objs i) = c at hw h ⊢
    obtain ⟨x, s⟩ := c
    cases x with
    | read k => exact absurd h (by simp [Tr.onCore])
    | write f k => exact absurd h (by simp [Tr.onCore])
    | done r' =>
      simp only [Tr.onCore, Tr.done.injEq] at h
      subst h
      obtain ⟨h1, h2⟩ := Prod.mk.inj hw
      exact ⟨h2, h1⟩
  · obtain ⟨n, hn⟩ := Tr.turns_end ((kind i).thread R (ops i)) (objs i)
    refine ⟨n, fun sched h => ?_⟩
    unfold separate
    rw [Tr.threads_separate]
    simp only [hn _ h, Tr.onCore]
    exact ⟨_, rfl⟩

/-- one object of each class -/
def exKind : Bool → Kind
  | true => .twoLayer
  | false => .impulseResponse

/-- `set_drivers`, `reset`, `run` on each -/
noncomputable def exOps : ∀ b, List ((exKind b).Op U0 XR)
  | true => ([.setDrivers (exDrivers U0.reg), .reset, .run] : List (TLM.Op U0 XR))
  | false => ([.setDrivers (exDrivers U0.reg), .reset, .run] : List (IRM.Op U0 XR))

/-- Concrete case: a two-layer and an impulse response object, whatever their state, a thread each with `set_drivers`, `reset`,
`run`: there are schedules under which both come to their end. -/
example (objs : ∀ b, (exKind b).Obj U0 XR) :
    ∃ sched : List Bool, ∀ b, ∃ r, (Tr.threads (separate U0.reg exKind exOps, objs) sched).1 b = .done r := by
  obtain ⟨-, h⟩ := C117_separate U0.reg exKind exOps objs
  obtain ⟨n, hn⟩ := h true
  obtain ⟨k, hk⟩ := h false
  refine ⟨List.replicate n true ++ List.replicate k false, fun b => ?_⟩
  cases b with
  | true => exact hn _ (by simp)
  | false => exact hk _ (by simp)

/-! ## two-layer -/

/-- **C117** (two-layer, one object).  However many threads call `set_drivers`, `reset`, `step`, `run` on one object, however they are
scheduled and wherever they are: the parameters are what they were, and `set_drivers`, `reset`, `run` then does exactly what it
would have done on the object before. -/
theorem C117_two_layer_shared (R : Registry N α) (m : TLM N α) (ops : ι → List (TLM.Op N α)) (h : ∀ i, ∀ op ∈ ops i, op.IsRun)
    (sched : List ι) :
    (Tr.threads (TLM.shared R ops, m) sched).2.pub = m.pub ∧ ∀ d,
      (TLM.simulate R d (Tr.threads (TLM.shared R ops, m) sched).2).2 = (TLM.simulate R d m).2 ∧
      ((TLM.simulate R d m).2 = .ok () →
        (TLM.simulate R d (Tr.threads (TLM.shared R ops, m) sched).2).1 = (TLM.simulate R d m).1) := by
  have hu : TLM.used (Tr.threads (TLM.shared R ops, m) sched).2 = m.used :=
    TLM.threads_keeps R (fun i op hop => TLM.reply_keeps R (TLM.callT_keeps R (h i op hop)) fun dv scen he => by
      have := h i op hop; rw [he] at this; exact this.elim) m sched
  refine ⟨?_, fun d => ?_⟩
  · have : (TLM.used (Tr.threads (TLM.shared R ops, m) sched).2).pub = (TLM.used m).pub := by rw [hu]
    exact this
  · obtain ⟨h1, h2⟩ := TLM.simulate_used R hu d
    exact ⟨h1, fun ho => h2 (h1.trans ho)⟩

/-- **C117** (two-layer, one object, `run_scenarios`).  However many threads call `run_scenarios`, assign `delta_t` and call
`set_drivers`, `reset`, `step`, `run` on one object, however they are scheduled and wherever they are: every parameter but
`delta_t` is what it was, and `run_scenarios` then returns or raises exactly what it would have returned or raised before. -/
theorem C117_two_layer_scenarios {R : Registry N α} (D : R.Dimensional) (m : TLM N α) (ops : ι → List (TLM.Op N α))
    (h : ∀ i, ∀ op ∈ ops i, op.IsRunOrScenarios) (sched : List ι) :
    { (Tr.threads (TLM.shared R ops, m) sched).2.pub with deltaT := m.pub.deltaT } = m.pub ∧ ∀ dv scen,
      (runScenarios (TLM.variant R) R dv scen (Tr.threads (TLM.shared R ops, m) sched).2).2 =
        (runScenarios (TLM.variant R) R dv scen m).2 := by
  have hu : TLM.usedNoDt R (Tr.threads (TLM.shared R ops, m) sched).2 = m.usedNoDt R :=
    TLM.threads_keeps R (fun i op hop => TLM.reply_keeps R (TLM.callT_keeps_noDt R (h i op hop))
      fun dv scen _ => TLM.runScenariosT_keeps R dv scen) m sched
  refine ⟨?_, fun dv scen => TLM.runScenarios_used D hu dv scen⟩
  have := congrArg (fun k : TLM N α => { k.pub with deltaT := m.pub.deltaT }) hu
  exact this

/-- **C117** (two-layer, one object, repair).  Whatever threads have done to one object, assignments of parameters included, and
wherever they were: once they are stopped and all parameters have been assigned, the object simulates exactly as a new object
constructed with these arguments. -/
theorem C117_two_layer_repair {R : Registry N α} (D : R.Dimensional) (m : TLM N α) (ops : ι → List (TLM.Op N α)) (sched : List ι)
    {x : TLM.Args N α} {m₀ : TLM N α} (hx : TLM.init R x = .ok m₀) :
    ∃ m', TLM.setAll R x (Tr.threads (TLM.shared R ops, m) sched).2 = (m', .ok ()) ∧ ∀ d,
      (TLM.simulate R d m').2 = (TLM.simulate R d m₀).2 ∧
      ((TLM.simulate R d m₀).2 = .ok () → (TLM.simulate R d m').1 = (TLM.simulate R d m₀).1) := by
  obtain ⟨m', h1, h2⟩ := TLM.setAll_ok D hx (Tr.threads (TLM.shared R ops, m) sched).2
  refine ⟨m', h1, fun d => ?_⟩
  obtain ⟨h3, h4⟩ := TLM.simulate_used R h2 d
  exact ⟨h3, fun ho => h4 (h3.trans ho)⟩

/-- What `C117_two_layer_shared` leaves open: threads that share an object get in each other's way while they run.  Two threads call
`step` on an object that has just been reset (whatever its drivers, at least one value): under one schedule both calls return,
and the object is as after one step; without threads it would be at the second. -/
theorem C117_two_layer_lost (R : Registry N α) (m : TLM N α) (h0 : m.idx = none) (h1 : m.tu ≠ []) (h2 : m.tl ≠ []) (h3 : m.rndt ≠ []) :
    ∃ sched : List Bool, (∀ b, (Tr.threads (TLM.shared R fun _ => [.step], m) sched).1 b = .done (.ok [.ok none])) ∧
      (Tr.threads (TLM.shared R fun _ => [.step], m) sched).2 = (TLM.call R .step m).1 ∧
      (Tr.threads (TLM.shared R fun _ => [.step], m) sched).2 ≠ (TLM.session R [.step, .step] m).1 := by
  obtain ⟨sched, h⟩ := TLM.step_twice R m h0 h1 h2 h3
  refine ⟨sched, fun b => by rw [h], by rw [h], fun hc => ?_⟩
  rw [h] at hc
  have h4 := congrArg TLM.idx hc
  have h5 : ∀ k : TLM N α, (TLM.reply R .step k).1 = (TLM.step k).1 := by
    intro k
    show ((TLM.step >>= fun _ => pure none : Py (TLM N α) (Option (ScmRun α))) k).1 = _
    rw [Py.bind_apply]
    rcases TLM.step k with ⟨s, _ | _⟩ <;> rfl
  simp only [TLM.session, TLM.call, h5, TLM.step_idx, h0, nextIdx] at h4
  exact absurd h4 (by simp)

/-- Concrete case: the default object, two threads that each call `set_drivers`, `reset`, `run` with `[1, 2, 3] W/m²`: wherever
they are, the simulation then goes through.  After the first two of these calls the object is as `C117_two_layer_lost` needs it. -/
example : ∃ m : TLM U0 XR, TLM.init U0.reg (TLM.defaultArgs U0.reg) = .ok m ∧
    (∀ sched : List Bool, (TLM.simulate U0.reg (exDrivers U0.reg)
      (Tr.threads (TLM.shared U0.reg fun _ => [.setDrivers (exDrivers U0.reg), .reset, .run], m) sched).2).2 = .ok ()) ∧
    (TLM.session U0.reg [.setDrivers (exDrivers U0.reg), .reset] m).1.idx = none ∧
    (TLM.session U0.reg [.setDrivers (exDrivers U0.reg), .reset] m).1.tu ≠ [] ∧
    (TLM.session U0.reg [.setDrivers (exDrivers U0.reg), .reset] m).1.tl ≠ [] ∧
    (TLM.session U0.reg [.setDrivers (exDrivers U0.reg), .reset] m).1.rndt ≠ [] := by
  obtain ⟨m, h1, h2⟩ := TLM.default_exists U0.lawful
  have hi : ∀ _ : Bool, ∀ op ∈ ([.setDrivers (exDrivers U0.reg), .reset, .run] : List (TLM.Op U0 XR)), op.IsRun := by
    intro _ op hop
    simp only [List.mem_cons, List.not_mem_nil, or_false] at hop
    rcases hop with rfl | rfl | rfl <;> exact trivial
  obtain ⟨m', hm', -⟩ := TLM.produces_sol U0.lawful (TLM.init_coherent _ h1) h2 TLPar.default_ok (by norm_num)
    (exDrivers_forcing (R := U0.reg))
  have hok : (TLM.simulate U0.reg (exDrivers U0.reg) m).2 = .ok () := by rw [hm']
  refine ⟨m, h1, fun sched => ((C117_two_layer_shared U0.reg m _ hi sched).2 _).1.trans hok, ?_⟩
  have e1 : ∀ k : TLM U0 XR, (TLM.reply U0.reg (.setDrivers (exDrivers U0.reg)) k).1 = (TLM.setDrivers U0.reg (exDrivers U0.reg) k).1 := by
    intro k
    show ((TLM.setDrivers U0.reg (exDrivers U0.reg) >>= fun _ => pure none : Py (TLM U0 XR) (Option (ScmRun XR))) k).1 = _
    rw [Py.bind_apply]
    rcases TLM.setDrivers U0.reg (exDrivers U0.reg) k with ⟨s, _ | _⟩ <;> rfl
  have e2 : ∀ k : TLM U0 XR, (TLM.reply U0.reg .reset k).1 = (TLM.reset k).1 := by
    intro k
    show ((TLM.reset >>= fun _ => pure none : Py (TLM U0 XR) (Option (ScmRun XR))) k).1 = _
    rw [Py.bind_apply]
    rcases TLM.reset k with ⟨s, _ | _⟩ <;> rfl
  simp only [TLM.session, e1, e2]
  rw [exDrivers, TLM.setDrivers_good U0.reg m (Or.inl rfl)]
  simp only
  rw [TLM.reset_set _ (vals := [.fin 1, .fin 2, .fin 3]) (u := U0.reg.wm2) rfl rfl]
  · exact ⟨rfl, by simp [nanLike, magsIn], by simp [nanLike, magsIn], by simp [nanLike, magsIn]⟩
  · simp [XR.isNaN_fin]

/-! ## impulse response -/

/-- **C117** (impulse response, one object).  However many threads call `set_drivers`, `reset`, `step`, `run` on one object, however they are
scheduled and wherever they are: the parameters are what they were, and `set_drivers`, `reset`, `run` then does exactly what it
would have done on the object before. -/
theorem C117_impulse_response_shared (R : Registry N α) (m : IRM N α) (ops : ι → List (IRM.Op N α)) (h : ∀ i, ∀ op ∈ ops i, op.IsRun)
    (sched : List ι) :
    (Tr.threads (IRM.shared R ops, m) sched).2.pub = m.pub ∧ ∀ d,
      (IRM.simulate R d (Tr.threads (IRM.shared R ops, m) sched).2).2 = (IRM.simulate R d m).2 ∧
      ((IRM.simulate R d m).2 = .ok () →
        (IRM.simulate R d (Tr.threads (IRM.shared R ops, m) sched).2).1 = (IRM.simulate R d m).1) := by
  have hu : IRM.used (Tr.threads (IRM.shared R ops, m) sched).2 = m.used :=
    IRM.threads_keeps R (fun i op hop => IRM.reply_keeps R (IRM.callT_keeps R (h i op hop)) fun dv scen he => by
      have := h i op hop; rw [he] at this; exact this.elim) m sched
  refine ⟨?_, fun d => ?_⟩
  · have : (IRM.used (Tr.threads (IRM.shared R ops, m) sched).2).pub = (IRM.used m).pub := by rw [hu]
    exact this
  · obtain ⟨h1, h2⟩ := IRM.simulate_used R hu d
    exact ⟨h1, fun ho => h2 (h1.trans ho)⟩

/-- **C117** (impulse response, one object, `run_scenarios`).  However many threads call `run_scenarios`, assign `delta_t` and call
`set_drivers`, `reset`, `step`, `run` on one object, however they are scheduled and wherever they are: every parameter but
`delta_t` is what it was, and `run_scenarios` then returns or raises exactly what it would have returned or raised before. -/
theorem C117_impulse_response_scenarios {R : Registry N α} (D : R.Dimensional) (m : IRM N α) (ops : ι → List (IRM.Op N α))
    (h : ∀ i, ∀ op ∈ ops i, op.IsRunOrScenarios) (sched : List ι) :
    { (Tr.threads (IRM.shared R ops, m) sched).2.pub with deltaT := m.pub.deltaT } = m.pub ∧ ∀ dv scen,
      (runScenarios (IRM.variant R) R dv scen (Tr.threads (IRM.shared R ops, m) sched).2).2 =
        (runScenarios (IRM.variant R) R dv scen m).2 := by
  have hu : IRM.usedNoDt R (Tr.threads (IRM.shared R ops, m) sched).2 = m.usedNoDt R :=
    IRM.threads_keeps R (fun i op hop => IRM.reply_keeps R (IRM.callT_keeps_noDt R (h i op hop))
      fun dv scen _ => IRM.runScenariosT_keeps R dv scen) m sched
  refine ⟨?_, fun dv scen => IRM.runScenarios_used D hu dv scen⟩
  have := congrArg (fun k : IRM N α => { k.pub with deltaT := m.pub.deltaT }) hu
  exact this

/-- **C117** (impulse response, one object, repair).  Whatever threads have done to one object, assignments of parameters included, and
wherever they were: once they are stopped and all parameters have been assigned, the object simulates exactly as a new object
constructed with these arguments. -/
theorem C117_impulse_response_repair {R : Registry N α} (m : IRM N α) (ops : ι → List (IRM.Op N α)) (sched : List ι)
    {x : IRM.Args N α} {m₀ : IRM N α} (hx : IRM.init R x = .ok m₀) :
    ∃ m', IRM.setAll R x (Tr.threads (IRM.shared R ops, m) sched).2 = (m', .ok ()) ∧ ∀ d,
      (IRM.simulate R d m').2 = (IRM.simulate R d m₀).2 ∧
      ((IRM.simulate R d m₀).2 = .ok () → (IRM.simulate R d m').1 = (IRM.simulate R d m₀).1) := by
  obtain ⟨m', h1, h2⟩ := IRM.setAll_ok hx (Tr.threads (IRM.shared R ops, m) sched).2
  refine ⟨m', h1, fun d => ?_⟩
  obtain ⟨h3, h4⟩ := IRM.simulate_used R h2 d
  exact ⟨h3, fun ho => h4 (h3.trans ho)⟩

/-- What `C117_impulse_response_shared` leaves open: threads that share an object get in each other's way while they run.  Two threads call
`step` on an object that has just been reset (whatever its drivers, at least one value): under one schedule both calls return,
and the object is as after one step; without threads it would be at the second. -/
theorem C117_impulse_response_lost (R : Registry N α) (m : IRM N α) (h0 : m.idx = none) (h1 : m.t1 ≠ []) (h2 : m.t2 ≠ []) (h3 : m.rndt ≠ []) :
    ∃ sched : List Bool, (∀ b, (Tr.threads (IRM.shared R fun _ => [.step], m) sched).1 b = .done (.ok [.ok none])) ∧
      (Tr.threads (IRM.shared R fun _ => [.step], m) sched).2 = (IRM.call R .step m).1 ∧
      (Tr.threads (IRM.shared R fun _ => [.step], m) sched).2 ≠ (IRM.session R [.step, .step] m).1 := by
  obtain ⟨sched, h⟩ := IRM.step_twice R m h0 h1 h2 h3
  refine ⟨sched, fun b => by rw [h], by rw [h], fun hc => ?_⟩
  rw [h] at hc
  have h4 := congrArg IRM.idx hc
  have h5 : ∀ k : IRM N α, (IRM.reply R .step k).1 = (IRM.step R k).1 := by
    intro k
    show ((IRM.step R >>= fun _ => pure none : Py (IRM N α) (Option (ScmRun α))) k).1 = _
    rw [Py.bind_apply]
    rcases IRM.step R k with ⟨s, _ | _⟩ <;> rfl
  simp only [IRM.session, IRM.call, h5, IRM.step_idx, h0, nextIdx] at h4
  exact absurd h4 (by simp)

/-- Concrete case: the default object, two threads that each call `set_drivers`, `reset`, `run` with `[1, 2, 3] W/m²`: wherever
they are, the simulation then goes through.  After the first two of these calls the object is as `C117_impulse_response_lost` needs it. -/
example : ∃ m : IRM U0 XR, IRM.init U0.reg (IRM.defaultArgs U0.reg) = .ok m ∧
    (∀ sched : List Bool, (IRM.simulate U0.reg (exDrivers U0.reg)
      (Tr.threads (IRM.shared U0.reg fun _ => [.setDrivers (exDrivers U0.reg), .reset, .run], m) sched).2).2 = .ok ()) ∧
    (IRM.session U0.reg [.setDrivers (exDrivers U0.reg), .reset] m).1.idx = none ∧
    (IRM.session U0.reg [.setDrivers (exDrivers U0.reg), .reset] m).1.t1 ≠ [] ∧
    (IRM.session U0.reg [.setDrivers (exDrivers U0.reg), .reset] m).1.t2 ≠ [] ∧
    (IRM.session U0.reg [.setDrivers (exDrivers U0.reg), .reset] m).1.rndt ≠ [] := by
  obtain ⟨m, h1, h2, h3, -⟩ := IRM.default_exists U0.lawful
  have hi : ∀ _ : Bool, ∀ op ∈ ([.setDrivers (exDrivers U0.reg), .reset, .run] : List (IRM.Op U0 XR)), op.IsRun := by
    intro _ op hop
    simp only [List.mem_cons, List.not_mem_nil, or_false] at hop
    rcases hop with rfl | rfl | rfl <;> exact trivial
  obtain ⟨m', hm', -⟩ := IRM.produces_sol U0.lawful (IRM.init_coherent _ h1) h2 IRPar.default_ok (κ := 1) (by rw [h3]; exact isNum_self _ _)
    (by norm_num) (exDrivers_forcing (R := U0.reg)) (Or.inl (Or.inl rfl))
  have hok : (IRM.simulate U0.reg (exDrivers U0.reg) m).2 = .ok () := by rw [hm']
  refine ⟨m, h1, fun sched => ((C117_impulse_response_shared U0.reg m _ hi sched).2 _).1.trans hok, ?_⟩
  have e1 : ∀ k : IRM U0 XR, (IRM.reply U0.reg (.setDrivers (exDrivers U0.reg)) k).1 = (IRM.setDrivers U0.reg (exDrivers U0.reg) k).1 := by
    intro k
    show ((IRM.setDrivers U0.reg (exDrivers U0.reg) >>= fun _ => pure none : Py (IRM U0 XR) (Option (ScmRun XR))) k).1 = _
    rw [Py.bind_apply]
    rcases IRM.setDrivers U0.reg (exDrivers U0.reg) k with ⟨s, _ | _⟩ <;> rfl
  have e2 : ∀ k : IRM U0 XR, (IRM.reply U0.reg .reset k).1 = (IRM.reset k).1 := by
    intro k
    show ((IRM.reset >>= fun _ => pure none : Py (IRM U0 XR) (Option (ScmRun XR))) k).1 = _
    rw [Py.bind_apply]
    rcases IRM.reset k with ⟨s, _ | _⟩ <;> rfl
  simp only [IRM.session, e1, e2]
  rw [exDrivers, IRM.setDrivers_good U0.reg m (Or.inl rfl)]
  simp only
  rw [IRM.reset_set _ (vals := [.fin 1, .fin 2, .fin 3]) (u := U0.reg.wm2) rfl rfl]
  · exact ⟨rfl, by simp [nanLike, magsIn], by simp [nanLike, magsIn], by simp [nanLike, magsIn]⟩
  · simp [XR.isNaN_fin]

end TwoLayer
