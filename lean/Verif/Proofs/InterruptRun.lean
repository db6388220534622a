import Verif.Proofs.Interrupt
import Verif.Proofs.Returned

/-! # What running cannot change, wherever it is interrupted -/

set_option linter.unusedSimpArgs false
set_option linter.unusedSectionVars false

namespace TwoLayer
variable {N α σ κ : Type} [Fintype N] [DecidableEq N] [Arith α]

theorem Tr.Keeps.onCore {γ κ' : Type} {f : σ → κ} {g : σ → γ} {p : σ → γ → σ} {x : Tr γ Unit} {h : γ → κ'}
    (hx : Tr.Keeps h x) (hp : ∀ s c, h c = h (g s) → f (p s c) = f s) : Tr.Keeps f (Tr.onCore g p x) := by
  induction x with
  | done r => trivial
  | read k ih => exact fun s => ih (g s) (hx (g s))
  | write w k ih => exact ⟨fun s => hp s _ (hx.1 (g s)), ih hx.2⟩

/-- time step only -/
def Core.dt (c : Core N α) : Qty N α × α := (c.deltaT, c.deltaTMag)

theorem Core.setErfT_keeps (R : Registry N α) (d : DArg N α) : Tr.Keeps Core.dt (Core.setErfT R d) := by
  cases d with
  | bare a => exact .throw _
  | qty a u => exact .ite (.bind (.assign fun _ => rfl) fun _ => .assign fun _ => rfl) (.throw _)

theorem Core.setDriversT_keeps (R : Registry N α) (d : DArg N α) : Tr.Keeps Core.dt (Core.setDriversT R d) := by
  cases d <;> exact .ite (.throw _) (Core.setErfT_keeps R _)

section
variable [DecidableEq α] {f : σ → κ} {V : TVariant N α σ} {R : Registry N α}

theorem runRowT_keeps (h1 : ∀ d, Tr.Keeps f (V.setDrivers d)) (h2 : Tr.Keeps f V.reset) (h3 : Tr.Keeps f V.run) (i : Nat)
    (row : Row α) : Tr.Keeps f (runRowT V R i row) := by
  unfold runRowT
  cases hg : row.info.get "unit" with
  | none => exact .throw _
  | some v =>
    cases v with
    | num x => exact .throw _
    | int n => exact .throw _
    | str us =>
      simp only
      cases hp : R.parse us with
      | none => exact .throw _
      | some u =>
        exact .bind (h1 _) fun _ => .bind h2 fun _ => .bind h3 fun _ => .bind .get fun _ =>
          .ite (.throw _) (.ite (.throw _) (.pure _))

theorem runRowsT_keeps (h1 : ∀ d, Tr.Keeps f (V.setDrivers d)) (h2 : Tr.Keeps f V.reset) (h3 : Tr.Keeps f V.run)
    (rows : List (Row α)) : ∀ i, Tr.Keeps f (runRowsT V R i rows) := by
  induction rows with
  | nil => exact fun i => .pure _
  | cons r rest ih =>
    exact fun i => .bind (runRowT_keeps h1 h2 h3 i r) fun _ => .bind (ih (i + 1)) fun _ => .pure _

theorem runScenariosT_keeps (h0 : ∀ q, Tr.Keeps f (V.setDeltaT q)) (h1 : ∀ d, Tr.Keeps f (V.setDrivers d))
    (h2 : Tr.Keeps f V.reset) (h3 : Tr.Keeps f V.run) (dv : String) (scen : ScmRun α) :
    Tr.Keeps f (runScenariosT V R dv scen) := by
  unfold runScenariosT
  exact .bind .get fun _ => .ite (.throw _) (.bind (.lift _) fun _ => .bind (h0 _) fun _ => .ite (.throw _)
    (.bind (runRowsT_keeps h1 h2 h3 _ 0) fun _ => .pure _))
end

/-! ## Two-layer objects -/
namespace TLM
variable (R : Registry N α)

/-- everything but outputs and time index -/
def cleared (m : TLM N α) : TLM N α := { m with tu := [], tl := [], rndt := [], idx := none }

/-- everything but drivers, outputs and time index -/
def used (m : TLM N α) : TLM N α :=
  { m with core := { m.core with erf := .unset, erfMag := none }, tu := [], tl := [], rndt := [], idx := none }

/-- everything but time step, drivers, outputs and time index -/
def usedNoDt (R : Registry N α) (m : TLM N α) : TLM N α :=
  { m.used with core := ⟨⟨Arith.nan, R.s⟩, Arith.nan, .unset, none⟩ }

theorem used_of_cleared {m m' : TLM N α} (h : m.cleared = m'.cleared) : m.used = m'.used := by
  have : m.cleared.used = m'.cleared.used := by rw [h]
  exact this

theorem keeps_used {β : Type} {x : Tr (TLM N α) β} (h : Tr.Keeps cleared x) : Tr.Keeps used x :=
  h.mono fun _ _ => used_of_cleared

theorem usedNoDt_of_used {m m' : TLM N α} (h : m.used = m'.used) : m.usedNoDt R = m'.usedNoDt R := by
  unfold usedNoDt; rw [h]

theorem used_core (m : TLM N α) (c : Core N α) (h : c.dt = m.core.dt) : used { m with core := c } = m.used := by
  obtain ⟨h1, h2⟩ := Prod.mk.inj h
  simp only [used, h1, h2]

theorem setErfT_keeps (d : DArg N α) : Tr.Keeps used (setErfT R d) :=
  .onCore (Core.setErfT_keeps R d) fun m c h => used_core m c h

theorem setDriversT_keeps (d : DArg N α) : Tr.Keeps used (setDriversT R d) :=
  .onCore (Core.setDriversT_keeps R d) fun m c h => used_core m c h

theorem setDeltaTT_keeps (v : Arg N α) : Tr.Keeps (usedNoDt R) (setDeltaTT R v) :=
  .onCore (h := fun _ => ()) (.unit _) fun _ _ _ => rfl

theorem resetT_keeps_cleared : Tr.Keeps cleared (resetT (N := N) (α := α)) :=
  .bind .get fun _ => .ite (.throw _) (.bind (.assign fun _ => rfl) fun _ => .bind .get fun _ => .bind (.lift _) fun _ => .bind (.assign fun _ => rfl) fun _ => .bind .get fun _ => .bind (.lift _) fun _ => .bind (.assign fun _ => rfl) fun _ => .bind .get fun _ => .bind (.lift _) fun _ => .assign fun _ => rfl)

theorem stepT_keeps_cleared : Tr.Keeps cleared (stepT (N := N) (α := α)) := by
  refine .bind (.bind .get fun m => .ite (.assign fun _ => rfl) (.bind .get fun _ => .assign fun _ => rfl)) fun _ =>
    .bind .get fun m' => .ite ?_ ?_
  · exact .bind .get fun _ => .bind (.lift _) fun _ => .bind (.lift _) fun _ => .bind (.assign fun _ => rfl) fun _ => .bind .get fun _ => .bind (.lift _) fun _ => .bind (.lift _) fun _ => .bind (.assign fun _ => rfl) fun _ => .bind .get fun _ => .bind (.lift _) fun _ => .bind (.lift _) fun _ => .assign fun _ => rfl
  · exact .bind .get fun _ => .bind (.lift _) fun _ => .bind (.lift _) fun _ => .bind (.lift _) fun _ => .bind (.lift _) fun _ => .bind (.lift _) fun _ => .bind (.assign fun _ => rfl) fun _ => .bind .get fun _ => .bind (.lift _) fun _ => .bind (.lift _) fun _ => .bind (.lift _) fun _ => .bind (.lift _) fun _ => .bind (.assign fun _ => rfl) fun _ => .bind .get fun _ => .bind (.lift _) fun _ => .bind (.lift _) fun _ => .bind (.lift _) fun _ => .bind (.lift _) fun _ => .bind (.lift _) fun _ => .bind (.lift _) fun _ => .assign fun _ => rfl

theorem runT_keeps_cleared : Tr.Keeps cleared (runT (N := N) (α := α)) := .bind .get fun _ => .times stepT_keeps_cleared _

theorem resetT_keeps : Tr.Keeps used (resetT (N := N) (α := α)) := keeps_used resetT_keeps_cleared
theorem stepT_keeps : Tr.Keeps used (stepT (N := N) (α := α)) := keeps_used stepT_keeps_cleared
theorem runT_keeps : Tr.Keeps used (runT (N := N) (α := α)) := keeps_used runT_keeps_cleared

theorem callT_keeps_cleared [DecidableEq α] {op : Op N α} (h : op = .reset ∨ op = .step ∨ op = .run) :
    Tr.Keeps cleared (callT R op) := by
  rcases h with rfl | rfl | rfl
  · exact resetT_keeps_cleared
  · exact stepT_keeps_cleared
  · exact runT_keeps_cleared

theorem restart_cleared {m m' : TLM N α} (h : m.cleared = m'.cleared) :
    ((do reset; run : Py (TLM N α) Unit) m).2 = ((do reset; run : Py (TLM N α) Unit) m').2 ∧
    (((do reset; run : Py (TLM N α) Unit) m).2 = .ok () →
      ((do reset; run : Py (TLM N α) Unit) m).1 = ((do reset; run : Py (TLM N α) Unit) m').1) := by
  have hc : m.core = m'.core := by
    have : m.cleared.core = m'.cleared.core := by rw [h]
    exact this
  simp only [Py.bind_apply]
  by_cases hn : m.core.erf.anyNaN = true
  · rw [reset_nan m hn, reset_nan m' (by rw [← hc]; exact hn)]
    exact ⟨rfl, fun h => by cases h⟩
  · have e1 : ∀ k : TLM N α, k.core = m.core → reset k = match m.core.erfMag with
        | none => ({ k with idx := none }, .error .attribute)
        | some l => ({ k with idx := none, tu := nanLike l, tl := nanLike l, rndt := nanLike l }, .ok ()) := by
      intro k hk
      simp only [reset, Py.bind_apply, Py.get_apply, hk]
      refine (congrFun (if_neg hn) k).trans ?_
      cases m.core.erfMag with
      | none => simp [hk]
      | some l => simp [hk]
    rw [e1 m rfl, e1 m' hc.symm]
    cases m.core.erfMag with
    | none => exact ⟨rfl, fun h => by cases h⟩
    | some l =>
      have e2 : ({ m with idx := none, tu := nanLike l, tl := nanLike l, rndt := nanLike l } : TLM N α) =
          { m' with idx := none, tu := nanLike l, tl := nanLike l, rndt := nanLike l } := by
        have := congrArg (fun k : TLM N α => { k with idx := none, tu := nanLike l, tl := nanLike l, rndt := nanLike l }) h
        exact this
      simp only [e2]
      exact ⟨trivial, fun _ => trivial⟩

theorem keeps_noDt {β : Type} {x : Tr (TLM N α) β} (h : Tr.Keeps used x) : Tr.Keeps (usedNoDt R) x :=
  h.mono fun _ _ => usedNoDt_of_used R

theorem runScenariosT_keeps [DecidableEq α] (dv : String) (scen : ScmRun α) :
    Tr.Keeps (usedNoDt R) (runScenariosT (TLM.tvariant R) R dv scen) :=
  TwoLayer.runScenariosT_keeps (fun _ => setDeltaTT_keeps R _) (fun _ => keeps_noDt R (setDriversT_keeps R _))
    (keeps_noDt R resetT_keeps) (keeps_noDt R runT_keeps) dv scen

theorem callT_keeps [DecidableEq α] {op : Op N α} (h : op.IsRun) : Tr.Keeps used (callT R op) := by
  cases op <;> first | exact h.elim | exact setErfT_keeps R _ | exact setDriversT_keeps R _ | exact resetT_keeps |
    exact stepT_keeps | exact runT_keeps

theorem callT_keeps_noDt [DecidableEq α] {op : Op N α} (h : op.IsRunOrScenarios) : Tr.Keeps (usedNoDt R) (callT R op) := by
  cases op <;> first | exact h.elim | exact keeps_noDt R (setErfT_keeps R _) | exact keeps_noDt R (setDriversT_keeps R _) |
    exact keeps_noDt R resetT_keeps | exact keeps_noDt R stepT_keeps | exact keeps_noDt R runT_keeps | exact setDeltaTT_keeps R _ |
    exact .bind (runScenariosT_keeps R _ _) fun _ => .pure _

theorem afterI_keeps [DecidableEq α] {κ : Type} {f : TLM N α → κ} {P : Op N α → Prop} (hP : ∀ op, P op → Tr.Keeps f (callT R op))
    (h : List (Op N α × Option Nat)) (hh : ∀ e ∈ h, P e.1) (m : TLM N α) : f (afterI R m h) = f m := by
  induction h generalizing m with
  | nil => rfl
  | cons e rest ih =>
    have h1 := hP e.1 (hh e (by simp))
    refine (ih (fun e' he' => hh e' (by simp [he'])) _).trans ?_
    rcases e with ⟨op, _ | k⟩
    · show f (call R op m).1 = f m
      rw [← whole_call]
      exact h1.whole m
    · exact h1.cut k m

theorem simulate_used {m m' : TLM N α} (h : m.used = m'.used) (d : DArg N α) :
    (simulate R d m).2 = (simulate R d m').2 ∧
      ((simulate R d m).2 = .ok () → (simulate R d m).1 = (simulate R d m').1) := by
  by_cases hg : ∃ vals u, GoodDrivers R d vals u
  · obtain ⟨vals, u, hg⟩ := hg
    have he : m.ready R vals u = m'.ready R vals u := by
      have h' : m.used.ready R vals u = m'.used.ready R vals u := by rw [h]
      exact h'
    rw [simulate_good R m hg, simulate_good R m' hg, he]
    exact ⟨rfl, fun _ => rfl⟩
  · obtain ⟨e, e1, e2⟩ := simulate_bad_eq R m m' (fun v u hh => hg ⟨v, u, hh⟩)
    rw [e1, e2]
    exact ⟨rfl, fun h => by cases h⟩

theorem simulate_keeps (d : DArg N α) (m : TLM N α) : (simulate R d m).1.used = m.used := by
  have h : Tr.Keeps used (do setDriversT R d; resetT; runT : Tr (TLM N α) Unit) :=
    .bind (setDriversT_keeps R d) fun _ => .bind resetT_keeps fun _ => runT_keeps
  have := h.whole m
  simp only [Tr.whole_bind, whole_setDrivers, whole_reset, whole_run] at this
  exact this
end TLM

/-- `run_scenarios` on any object whatever, coherent or not: its outcome depends on `usedNoDt` only -/
def TLM.lawsAny [DecidableEq α] {R : Registry N α} (D : R.Dimensional) : (TLM.variant R).Laws R where
  K := TLM N α
  Inv := fun _ => True
  pub := TLM.used
  withDt := fun k q => { k with core := { k.core with deltaT := q, deltaTMag := q.magIn R R.s } }
  withDt_withDt := fun _ _ _ => rfl
  params := TLM.saveParas
  names := (TLM.laws D).names
  params_eq := fun _ => rfl
  params_dt := fun _ _ => rfl
  params_names := fun k => (TLM.laws D).params_names k.pub
  names_nodup := (TLM.laws D).names_nodup
  setDt := fun m q _ hq => ⟨_, TLM.setDeltaT_good (UnitOk.time D hq).1 m, trivial, rfl⟩
  sim_congr := fun m₁ m₂ d _ _ hp => TLM.simulate_used R hp d
  sim_inv := fun m d _ => ⟨trivial, TLM.simulate_keeps R d m⟩
  sim_len := (TLM.laws D).sim_len
  out_names := (TLM.laws D).out_names

theorem TLM.runScenarios_used [DecidableEq α] {R : Registry N α} (D : R.Dimensional) {m m' : TLM N α}
    (h : m.usedNoDt R = m'.usedNoDt R) (dv : String) (scen : ScmRun α) :
    (runScenarios (TLM.variant R) R dv scen m).2 = (runScenarios (TLM.variant R) R dv scen m').2 := by
  refine (TLM.lawsAny D).runScenarios_congr trivial trivial (fun q => ?_) dv scen
  have := congrArg (fun k : TLM N α => { k with core := ⟨q, q.magIn R R.s, .unset, none⟩ }) h
  exact this

/-! ## Impulse response objects -/
namespace IRM
variable (R : Registry N α)

/-- everything but outputs and time index -/
def cleared (m : IRM N α) : IRM N α := { m with t1 := [], t2 := [], rndt := [], idx := none }

/-- everything but drivers, outputs and time index -/
def used (m : IRM N α) : IRM N α :=
  { m with core := { m.core with erf := .unset, erfMag := none }, t1 := [], t2 := [], rndt := [], idx := none }

/-- everything but time step, drivers, outputs and time index -/
def usedNoDt (R : Registry N α) (m : IRM N α) : IRM N α :=
  { m.used with core := ⟨⟨Arith.nan, R.s⟩, Arith.nan, .unset, none⟩ }

theorem used_of_cleared {m m' : IRM N α} (h : m.cleared = m'.cleared) : m.used = m'.used := by
  have : m.cleared.used = m'.cleared.used := by rw [h]
  exact this

theorem keeps_used {β : Type} {x : Tr (IRM N α) β} (h : Tr.Keeps cleared x) : Tr.Keeps used x :=
  h.mono fun _ _ => used_of_cleared

theorem usedNoDt_of_used {m m' : IRM N α} (h : m.used = m'.used) : m.usedNoDt R = m'.usedNoDt R := by
  unfold usedNoDt; rw [h]

theorem used_core (m : IRM N α) (c : Core N α) (h : c.dt = m.core.dt) : used { m with core := c } = m.used := by
  obtain ⟨h1, h2⟩ := Prod.mk.inj h
  simp only [used, h1, h2]

theorem setErfT_keeps (d : DArg N α) : Tr.Keeps used (setErfT R d) :=
  .onCore (Core.setErfT_keeps R d) fun m c h => used_core m c h

theorem setDriversT_keeps (d : DArg N α) : Tr.Keeps used (setDriversT R d) :=
  .onCore (Core.setDriversT_keeps R d) fun m c h => used_core m c h

theorem setDeltaTT_keeps (v : Arg N α) : Tr.Keeps (usedNoDt R) (setDeltaTT R v) :=
  .onCore (h := fun _ => ()) (.unit _) fun _ _ _ => rfl

theorem resetT_keeps_cleared : Tr.Keeps cleared (resetT (N := N) (α := α)) :=
  .bind .get fun _ => .ite (.throw _) (.bind (.assign fun _ => rfl) fun _ => .bind .get fun _ => .bind (.lift _) fun _ => .bind (.assign fun _ => rfl) fun _ => .bind .get fun _ => .bind (.lift _) fun _ => .bind (.assign fun _ => rfl) fun _ => .bind .get fun _ => .bind (.lift _) fun _ => .assign fun _ => rfl)

theorem stepT_keeps_cleared : Tr.Keeps cleared (stepT R) := by
  refine .bind (.bind .get fun m => .ite (.assign fun _ => rfl) (.bind .get fun _ => .assign fun _ => rfl)) fun _ =>
    .bind .get fun m' => .ite ?_ ?_
  · exact .bind .get fun _ => .bind (.lift _) fun _ => .bind (.lift _) fun _ => .bind (.assign fun _ => rfl) fun _ => .bind .get fun _ => .bind (.lift _) fun _ => .bind (.lift _) fun _ => .bind (.assign fun _ => rfl) fun _ => .bind .get fun _ => .bind (.lift _) fun _ => .bind (.lift _) fun _ => .assign fun _ => rfl
  · exact .bind .get fun _ => .bind (.lift _) fun _ => .bind (.lift _) fun _ => .bind (.lift _) fun _ => .bind (.lift _) fun _ => .bind (.lift _) fun _ => .bind (.assign fun _ => rfl) fun _ => .bind .get fun _ => .bind (.lift _) fun _ => .bind (.lift _) fun _ => .bind (.lift _) fun _ => .bind (.lift _) fun _ => .bind (.lift _) fun _ => .bind (.assign fun _ => rfl) fun _ => .bind .get fun _ => .bind (.lift _) fun _ => .bind (.lift _) fun _ => .bind (.lift _) fun _ => .bind (.lift _) fun _ => .bind (.lift _) fun _ => .bind (.lift _) fun _ => .assign fun _ => rfl

theorem runT_keeps_cleared : Tr.Keeps cleared (runT R) := .bind .get fun _ => .times (stepT_keeps_cleared R) _

theorem resetT_keeps : Tr.Keeps used (resetT (N := N) (α := α)) := keeps_used resetT_keeps_cleared
theorem stepT_keeps : Tr.Keeps used (stepT R) := keeps_used (stepT_keeps_cleared R)
theorem runT_keeps : Tr.Keeps used (runT R) := keeps_used (runT_keeps_cleared R)

theorem callT_keeps_cleared [DecidableEq α] {op : Op N α} (h : op = .reset ∨ op = .step ∨ op = .run) :
    Tr.Keeps cleared (callT R op) := by
  rcases h with rfl | rfl | rfl
  · exact resetT_keeps_cleared
  · exact stepT_keeps_cleared R
  · exact runT_keeps_cleared R

theorem restart_cleared {m m' : IRM N α} (h : m.cleared = m'.cleared) :
    ((do reset; run R : Py (IRM N α) Unit) m).2 = ((do reset; run R : Py (IRM N α) Unit) m').2 ∧
    (((do reset; run R : Py (IRM N α) Unit) m).2 = .ok () →
      ((do reset; run R : Py (IRM N α) Unit) m).1 = ((do reset; run R : Py (IRM N α) Unit) m').1) := by
  have hc : m.core = m'.core := by
    have : m.cleared.core = m'.cleared.core := by rw [h]
    exact this
  simp only [Py.bind_apply]
  by_cases hn : m.core.erf.anyNaN = true
  · rw [reset_nan m hn, reset_nan m' (by rw [← hc]; exact hn)]
    exact ⟨rfl, fun h => by cases h⟩
  · have e1 : ∀ k : IRM N α, k.core = m.core → reset k = match m.core.erfMag with
        | none => ({ k with idx := none }, .error .attribute)
        | some l => ({ k with idx := none, t1 := nanLike l, t2 := nanLike l, rndt := nanLike l }, .ok ()) := by
      intro k hk
      simp only [reset, Py.bind_apply, Py.get_apply, hk]
      refine (congrFun (if_neg hn) k).trans ?_
      cases m.core.erfMag with
      | none => simp [hk]
      | some l => simp [hk]
    rw [e1 m rfl, e1 m' hc.symm]
    cases m.core.erfMag with
    | none => exact ⟨rfl, fun h => by cases h⟩
    | some l =>
      have e2 : ({ m with idx := none, t1 := nanLike l, t2 := nanLike l, rndt := nanLike l } : IRM N α) =
          { m' with idx := none, t1 := nanLike l, t2 := nanLike l, rndt := nanLike l } := by
        have := congrArg (fun k : IRM N α => { k with idx := none, t1 := nanLike l, t2 := nanLike l, rndt := nanLike l }) h
        exact this
      simp only [e2]
      exact ⟨trivial, fun _ => trivial⟩

theorem keeps_noDt {β : Type} {x : Tr (IRM N α) β} (h : Tr.Keeps used x) : Tr.Keeps (usedNoDt R) x :=
  h.mono fun _ _ => usedNoDt_of_used R

theorem runScenariosT_keeps [DecidableEq α] (dv : String) (scen : ScmRun α) :
    Tr.Keeps (usedNoDt R) (runScenariosT (IRM.tvariant R) R dv scen) :=
  TwoLayer.runScenariosT_keeps (fun _ => setDeltaTT_keeps R _) (fun _ => keeps_noDt R (setDriversT_keeps R _))
    (keeps_noDt R resetT_keeps) (keeps_noDt R (runT_keeps R)) dv scen

theorem callT_keeps [DecidableEq α] {op : Op N α} (h : op.IsRun) : Tr.Keeps used (callT R op) := by
  cases op <;> first | exact h.elim | exact setErfT_keeps R _ | exact setDriversT_keeps R _ | exact resetT_keeps |
    exact stepT_keeps R | exact runT_keeps R

theorem callT_keeps_noDt [DecidableEq α] {op : Op N α} (h : op.IsRunOrScenarios) : Tr.Keeps (usedNoDt R) (callT R op) := by
  cases op <;> first | exact h.elim | exact keeps_noDt R (setErfT_keeps R _) | exact keeps_noDt R (setDriversT_keeps R _) |
    exact keeps_noDt R resetT_keeps | exact keeps_noDt R (stepT_keeps R) | exact keeps_noDt R (runT_keeps R) | exact setDeltaTT_keeps R _ |
    exact .bind (runScenariosT_keeps R _ _) fun _ => .pure _

theorem afterI_keeps [DecidableEq α] {κ : Type} {f : IRM N α → κ} {P : Op N α → Prop} (hP : ∀ op, P op → Tr.Keeps f (callT R op))
    (h : List (Op N α × Option Nat)) (hh : ∀ e ∈ h, P e.1) (m : IRM N α) : f (afterI R m h) = f m := by
  induction h generalizing m with
  | nil => rfl
  | cons e rest ih =>
    have h1 := hP e.1 (hh e (by simp))
    refine (ih (fun e' he' => hh e' (by simp [he'])) _).trans ?_
    rcases e with ⟨op, _ | k⟩
    · show f (call R op m).1 = f m
      rw [← whole_call]
      exact h1.whole m
    · exact h1.cut k m

theorem simulate_used {m m' : IRM N α} (h : m.used = m'.used) (d : DArg N α) :
    (simulate R d m).2 = (simulate R d m').2 ∧
      ((simulate R d m).2 = .ok () → (simulate R d m).1 = (simulate R d m').1) := by
  by_cases hg : ∃ vals u, GoodDrivers R d vals u
  · obtain ⟨vals, u, hg⟩ := hg
    have he : m.ready R vals u = m'.ready R vals u := by
      have h' : m.used.ready R vals u = m'.used.ready R vals u := by rw [h]
      exact h'
    rw [simulate_good R m hg, simulate_good R m' hg, he]
    exact ⟨rfl, fun _ => rfl⟩
  · obtain ⟨e, e1, e2⟩ := simulate_bad_eq R m m' (fun v u hh => hg ⟨v, u, hh⟩)
    rw [e1, e2]
    exact ⟨rfl, fun h => by cases h⟩

theorem simulate_keeps (d : DArg N α) (m : IRM N α) : (simulate R d m).1.used = m.used := by
  have h : Tr.Keeps used (do setDriversT R d; resetT; runT R : Tr (IRM N α) Unit) :=
    .bind (setDriversT_keeps R d) fun _ => .bind resetT_keeps fun _ => runT_keeps R
  have := h.whole m
  simp only [Tr.whole_bind, whole_setDrivers, whole_reset, whole_run] at this
  exact this
end IRM

/-- `run_scenarios` on any object whatever, coherent or not: its outcome depends on `usedNoDt` only -/
def IRM.lawsAny [DecidableEq α] {R : Registry N α} (D : R.Dimensional) : (IRM.variant R).Laws R where
  K := IRM N α
  Inv := fun _ => True
  pub := IRM.used
  withDt := fun k q => { k with core := { k.core with deltaT := q, deltaTMag := q.magIn R R.yr } }
  withDt_withDt := fun _ _ _ => rfl
  params := IRM.saveParas
  names := (IRM.laws D).names
  params_eq := fun _ => rfl
  params_dt := fun _ _ => rfl
  params_names := fun k => (IRM.laws D).params_names k.pub
  names_nodup := (IRM.laws D).names_nodup
  setDt := fun m q _ hq => ⟨_, IRM.setDeltaT_good (UnitOk.time D hq).2 m, trivial, rfl⟩
  sim_congr := fun m₁ m₂ d _ _ hp => IRM.simulate_used R hp d
  sim_inv := fun m d _ => ⟨trivial, IRM.simulate_keeps R d m⟩
  sim_len := (IRM.laws D).sim_len
  out_names := (IRM.laws D).out_names

theorem IRM.runScenarios_used [DecidableEq α] {R : Registry N α} (D : R.Dimensional) {m m' : IRM N α}
    (h : m.usedNoDt R = m'.usedNoDt R) (dv : String) (scen : ScmRun α) :
    (runScenarios (IRM.variant R) R dv scen m).2 = (runScenarios (IRM.variant R) R dv scen m').2 := by
  refine (IRM.lawsAny D).runScenarios_congr trivial trivial (fun q => ?_) dv scen
  have := congrArg (fun k : IRM N α => { k with core := ⟨q, q.magIn R R.yr, .unset, none⟩ }) h
  exact this

end TwoLayer
