import Verif.Spec.Interrupt
import Verif.Proofs.ScenGen
import Verif.Proofs.Congr

/-! # Methods assignment by assignment: the whole is the method of the model; what every assignment leaves alone -/

set_option linter.unusedSimpArgs false
set_option linter.unusedSectionVars false

namespace TwoLayer

namespace Tr
variable {σ β γ κ : Type}

theorem exec_bind (x : Tr σ β) (f : β → Tr σ γ) (s : σ) : (x >>= f).exec s = match x.exec s with
    | (l, s', .ok a) => (l ++ ((f a).exec s').1, ((f a).exec s').2)
    | (l, s', .error e) => (l, s', .error e) := by
  show (bind x f).exec s = _
  induction x generalizing s with
  | done r => cases r <;> rfl
  | read k ih => exact ih s s
  | write g k ih =>
    simp only [bind, exec, ih]
    rcases k.exec (g s) with ⟨l, s', _ | _⟩ <;> rfl

theorem exec_onCore {g : σ → κ} {p : σ → κ → σ} (hg : ∀ s c, g (p s c) = c) (hp : ∀ s c c', p (p s c) c' = p s c')
    (hs : ∀ s, p s (g s) = s) (x : Tr κ β) (s : σ) :
    (onCore g p x).exec s = ((x.exec (g s)).1.map (p s), p s (x.exec (g s)).2.1, (x.exec (g s)).2.2) := by
  induction x generalizing s with
  | done r => simp only [onCore, exec, List.map_nil, hs]
  | read k ih => exact ih (g s) s
  | write f k ih =>
    have : p (p s (f (g s))) = p s := funext fun c => hp s _ c
    simp only [onCore, exec, ih, hg, hp, List.map_cons, this]

@[simp] theorem whole_pure (a : β) : whole (pure a : Tr σ β) = pure a := rfl
@[simp] theorem whole_bind (x : Tr σ β) (f : β → Tr σ γ) : whole (x >>= f) = whole x >>= fun a => whole (f a) := by
  funext s
  show ((x >>= f).exec s).2 = match (x.exec s).2 with | (s', .ok a) => ((f a).exec s').2 | (s', .error e) => (s', .error e)
  rw [exec_bind]
  rcases x.exec s with ⟨l, s', _ | _⟩ <;> rfl
@[simp] theorem whole_get : whole (get : Tr σ σ) = Py.get := rfl
@[simp] theorem whole_assign (f : σ → σ) : whole (assign f) = Py.modify f := rfl
@[simp] theorem whole_throw (e : Err) : whole (throw e : Tr σ β) = Py.throw e := rfl
@[simp] theorem whole_lift (x : Except Err β) : whole (lift x : Tr σ β) = Py.lift x := rfl
@[simp] theorem whole_ite {c : Prop} [Decidable c] (x y : Tr σ β) :
    whole (if c then x else y) = if c then whole x else whole y := by split <;> rfl
theorem whole_onCore {g : σ → κ} {p : σ → κ → σ} (hg : ∀ s c, g (p s c) = c) (hp : ∀ s c c', p (p s c) c' = p s c')
    (hs : ∀ s, p s (g s) = s) (x : Tr κ β) : whole (onCore g p x) = Py.onCore g p (whole x) := by
  funext s
  show ((onCore g p x).exec s).2 = _
  rw [exec_onCore hg hp hs]
  rfl
@[simp] theorem whole_times (x : Tr σ Unit) (k : Nat) : whole (times x k) = Py.times (whole x) k := by
  induction k with
  | zero => rfl
  | succ k ih => simp only [times, Py.times, whole_bind, ih]

/-- every assignment of the method, whatever it has read before, leaves `f` as it is -/
def Keeps (f : σ → κ) : Tr σ β → Prop
  | done _ => True
  | read k => ∀ s, Keeps f (k s)
  | write g k => (∀ s, f (g s) = f s) ∧ Keeps f k

namespace Keeps
variable {f : σ → κ}
theorem pure (a : β) : Keeps f (Pure.pure a : Tr σ β) := trivial
theorem get : Keeps f (Tr.get : Tr σ σ) := fun _ => trivial
theorem throw (e : Err) : Keeps f (Tr.throw e : Tr σ β) := trivial
theorem lift (x : Except Err β) : Keeps f (Tr.lift x : Tr σ β) := trivial
theorem assign {g : σ → σ} (h : ∀ s, f (g s) = f s) : Keeps f (Tr.assign g) := ⟨h, trivial⟩
theorem bind {x : Tr σ β} {g : β → Tr σ γ} (hx : Keeps f x) (hg : ∀ a, Keeps f (g a)) : Keeps f (x >>= g) := by
  show Keeps f (Tr.bind x g)
  induction x with
  | done r => cases r with
    | error e => trivial
    | ok a => exact hg a
  | read k ih => exact fun s => ih s (hx s)
  | write w k ih => exact ⟨hx.1, ih hx.2⟩
theorem times {x : Tr σ Unit} (hx : Keeps f x) (k : Nat) : Keeps f (Tr.times x k) := by
  induction k with
  | zero => exact pure ()
  | succ k ih => exact bind hx fun _ => ih
theorem exec {x : Tr σ β} (hx : Keeps f x) (s : σ) : (∀ s' ∈ (x.exec s).1, f s' = f s) ∧ f (x.exec s).2.1 = f s := by
  induction x generalizing s with
  | done r => exact ⟨by simp [Tr.exec], rfl⟩
  | read k ih => exact ih s (hx s) s
  | write g k ih =>
    obtain ⟨h1, h2⟩ := ih hx.2 (g s)
    refine ⟨fun s' hs' => ?_, h2.trans (hx.1 s)⟩
    rcases List.mem_cons.mp hs' with rfl | h
    · exact hx.1 s
    · exact (h1 s' h).trans (hx.1 s)
theorem mono {κ' : Type} {g : σ → κ'} (h : ∀ s s', f s = f s' → g s = g s') {x : Tr σ β} (hx : Keeps f x) : Keeps g x := by
  induction x with
  | done r => trivial
  | read k ih => exact fun s => ih s (hx s)
  | write w k ih => exact ⟨fun s => h _ _ (hx.1 s), ih hx.2⟩
theorem unit {g : σ → Unit} (x : Tr σ β) : Keeps g x := by
  induction x with
  | done r => trivial
  | read k ih => exact ih
  | write w k ih => exact ⟨fun _ => rfl, ih⟩
theorem cut {x : Tr σ β} (hx : Keeps f x) (k : Nat) (s : σ) : f (x.cut k s) = f s := by
  obtain ⟨h1, h2⟩ := hx.exec s
  unfold Tr.cut
  cases h : (s :: (x.exec s).1)[k]? with
  | none => exact h2
  | some t =>
    rcases List.mem_cons.mp (List.mem_of_getElem? h) with rfl | ht
    · rfl
    · exact h1 t ht
theorem whole {x : Tr σ β} (hx : Keeps f x) (s : σ) : f (x.whole s).1 = f s := (hx.exec s).2
theorem ite {c : Prop} [Decidable c] {x y : Tr σ β} (hx : Keeps f x) (hy : Keeps f y) : Keeps f (if c then x else y) := by
  split
  · exact hx
  · exact hy
end Keeps
end Tr

variable {N α σ : Type} [Fintype N] [DecidableEq N] [Arith α]
section
variable (R : Registry N α)

theorem Core.whole_setDeltaT (u : Units N) (v : Arg N α) : (Core.setDeltaTT R u v).whole = Core.setDeltaT R u v := by
  funext c
  simp only [Core.setDeltaTT, Core.setDeltaT, Tr.whole_bind, Tr.whole_lift, Tr.whole_assign, Py.bind_apply, Py.lift_apply,
    Py.modify_apply]

theorem Core.whole_setErf (v : DArg N α) : (Core.setErfT R v).whole = Core.setErf R v := by
  cases v with
  | bare a => rfl
  | qty a u =>
    simp only [Core.setErfT, Core.setErf, Tr.whole_ite, Tr.whole_bind, Tr.whole_assign, Tr.whole_throw]
    split <;> rfl

theorem Core.whole_setDrivers (v : DArg N α) : (Core.setDriversT R v).whole = Core.setDrivers R v := by
  cases v <;> simp only [Core.setDriversT, Core.setDrivers, Tr.whole_ite, Tr.whole_throw, Core.whole_setErf]

/-- go on with the value of an expression, or raise -/
def onOk {σ β γ : Type} (x : Except Err β) (s : σ) (k : β → σ × Except Err γ) : σ × Except Err γ :=
  match x with
  | .ok a => k a
  | .error e => (s, .error e)

theorem Py.lift_bind_apply {σ β γ : Type} (x : Except Err β) (f : β → Py σ γ) (s : σ) :
    (Py.lift x >>= f) s = onOk x s fun a => f a s := by
  cases x <;> rfl

theorem onOk_setAt {σ γ : Type} (l : List α) (i : Nat) (x : α) (s : σ) (k : List α → σ × Except Err γ) :
    onOk (setAt l i x) s k = if i < l.length then k (l.set i x) else (s, .error .index) := by
  unfold setAt; split <;> rfl

theorem onOk_ok {σ β γ : Type} (a : β) (s : σ) (k : β → σ × Except Err γ) : onOk (.ok a) s k = k a := rfl

theorem Py.modify_bind_apply {σ β : Type} (f : σ → σ) (g : Unit → Py σ β) (s : σ) : (Py.modify f >>= g) s = g () (f s) := rfl
theorem Py.get_bind_apply {σ β : Type} (g : σ → Py σ β) (s : σ) : (Py.get >>= g) s = g s s := rfl

theorem getPrev_succ (l : List α) (j : Nat) : getPrev l (j + 1) = getAt l j := by simp [getPrev]

theorem Core.erfPrev_succ (c : Core N α) (j : Nat) : c.erfPrev (j + 1) = c.erfAt j := by
  unfold Core.erfPrev Core.erfAt
  cases c.erfMag with
  | none => rfl
  | some l => exact getPrev_succ l j

namespace TLM
theorem whole_setDu (v : Arg N α) : (setDuT R v).whole = setDu R v := by
  simp only [setDuT, setDu, Tr.whole_bind, Tr.whole_lift, Tr.whole_assign, Tr.whole_get]
theorem whole_setDl (v : Arg N α) : (setDlT R v).whole = setDl R v := by
  simp only [setDlT, setDl, Tr.whole_bind, Tr.whole_lift, Tr.whole_assign, Tr.whole_get]
theorem whole_setLambda0 (v : Arg N α) : (setLambda0T R v).whole = setLambda0 R v := by
  funext m
  simp only [setLambda0T, setLambda0, Tr.whole_bind, Tr.whole_lift, Tr.whole_assign, Py.bind_apply, Py.lift_apply, Py.modify_apply]
theorem whole_setA (v : Arg N α) : (setAT R v).whole = setA R v := by
  funext m
  simp only [setAT, setA, Tr.whole_bind, Tr.whole_lift, Tr.whole_assign, Py.bind_apply, Py.lift_apply, Py.modify_apply]
theorem whole_setEfficacy (v : Arg N α) : (setEfficacyT R v).whole = setEfficacy R v := by
  funext m
  simp only [setEfficacyT, setEfficacy, Tr.whole_bind, Tr.whole_lift, Tr.whole_assign, Py.bind_apply, Py.lift_apply, Py.modify_apply]
theorem whole_setEta (v : Arg N α) : (setEtaT R v).whole = setEta R v := by
  funext m
  simp only [setEtaT, setEta, Tr.whole_bind, Tr.whole_lift, Tr.whole_assign, Py.bind_apply, Py.lift_apply, Py.modify_apply]
theorem whole_setDeltaT (v : Arg N α) : (setDeltaTT R v).whole = setDeltaT R v := by
  refine (Tr.whole_onCore (g := TLM.core) (p := fun m c => { m with core := c }) (fun _ _ => rfl) (fun _ _ _ => rfl) (fun _ => rfl) _).trans ?_
  rw [Core.whole_setDeltaT]; rfl
theorem whole_setErf (v : DArg N α) : (setErfT R v).whole = setErf R v := by
  refine (Tr.whole_onCore (g := TLM.core) (p := fun m c => { m with core := c }) (fun _ _ => rfl) (fun _ _ _ => rfl) (fun _ => rfl) _).trans ?_
  rw [Core.whole_setErf]; rfl
theorem whole_setDrivers (v : DArg N α) : (setDriversT R v).whole = setDrivers R v := by
  refine (Tr.whole_onCore (g := TLM.core) (p := fun m c => { m with core := c }) (fun _ _ => rfl) (fun _ _ _ => rfl) (fun _ => rfl) _).trans ?_
  rw [Core.whole_setDrivers]; rfl
theorem whole_reset : (resetT (N := N) (α := α)).whole = TLM.reset := by
  funext m
  simp only [resetT, TLM.reset, Tr.whole_bind, Tr.whole_get, Tr.whole_ite, Tr.whole_throw, Py.bind_apply, Py.get_apply]
  split
  · rfl
  · simp only [Tr.whole_assign, Tr.whole_bind, Tr.whole_get, Tr.whole_lift, Py.bind_apply, Py.modify_apply, Py.get_apply, Py.lift_apply,
      Core.erfMags]
    cases h : m.core.erfMag <;> simp [h, Py.bind_apply, Py.modify_apply, Py.throw]
theorem whole_count (m : TLM N α) : (countT (N := N) (α := α)).whole m = ({ m with idx := some (nextIdx m.idx) }, .ok ()) := by
  simp only [countT, Tr.whole_bind, Tr.whole_get, Tr.whole_ite, Tr.whole_assign, Py.bind_apply, Py.get_apply]
  cases h : m.idx with
  | none => simp [nextIdx, Py.modify_apply]
  | some i => simp [nextIdx, Py.modify_apply, Py.bind_apply, Py.get_apply, h]
theorem whole_step : (stepT (N := N) (α := α)).whole = TLM.step := by
  funext m
  simp only [stepT, TLM.step, Tr.whole_bind, Tr.whole_get, Tr.whole_ite, Py.bind_apply, Py.get_apply, Py.modify_apply, whole_count]
  cases nextIdx m.idx with
  | zero =>
    simp only [firstT, if_true, Tr.whole_bind, Tr.whole_lift, Tr.whole_assign, Tr.whole_get, Py.lift_bind_apply, Py.modify_bind_apply,
      Py.get_bind_apply, onOk_setAt, onOk_ok, Py.modify_apply, asIndex]
  | succ j =>
    simp only [nextT, Option.some.injEq, Nat.add_eq_zero_iff, one_ne_zero, and_false, if_false, Tr.whole_bind,
      Tr.whole_lift, Tr.whole_assign, Tr.whole_get, Py.lift_bind_apply, Py.modify_bind_apply,
      Py.get_bind_apply, onOk_setAt, onOk_ok, Py.modify_apply, asIndex, getPrev_succ, Core.erfPrev_succ]
theorem whole_run : (runT (N := N) (α := α)).whole = TLM.run := by
  simp only [runT, TLM.run, Tr.whole_bind, Tr.whole_get, Tr.whole_times, whole_step]
end TLM

namespace IRM
theorem whole_setD1 (v : Arg N α) : (setD1T R v).whole = setD1 R v := by
  funext m
  simp only [setD1T, setD1, Tr.whole_bind, Tr.whole_lift, Tr.whole_assign, Py.bind_apply, Py.lift_apply, Py.modify_apply]
theorem whole_setD2 (v : Arg N α) : (setD2T R v).whole = setD2 R v := by
  funext m
  simp only [setD2T, setD2, Tr.whole_bind, Tr.whole_lift, Tr.whole_assign, Py.bind_apply, Py.lift_apply, Py.modify_apply]
theorem whole_setQ1 (v : Arg N α) : (setQ1T R v).whole = setQ1 R v := by
  funext m
  simp only [setQ1T, setQ1, Tr.whole_bind, Tr.whole_lift, Tr.whole_assign, Py.bind_apply, Py.lift_apply, Py.modify_apply]
theorem whole_setQ2 (v : Arg N α) : (setQ2T R v).whole = setQ2 R v := by
  funext m
  simp only [setQ2T, setQ2, Tr.whole_bind, Tr.whole_lift, Tr.whole_assign, Py.bind_apply, Py.lift_apply, Py.modify_apply]
theorem whole_setEfficacy (v : Arg N α) : (setEfficacyT R v).whole = setEfficacy R v := by
  funext m
  simp only [setEfficacyT, setEfficacy, Tr.whole_bind, Tr.whole_lift, Tr.whole_assign, Py.bind_apply, Py.lift_apply, Py.modify_apply]
theorem whole_setDeltaT (v : Arg N α) : (setDeltaTT R v).whole = setDeltaT R v := by
  refine (Tr.whole_onCore (g := IRM.core) (p := fun m c => { m with core := c }) (fun _ _ => rfl) (fun _ _ _ => rfl) (fun _ => rfl) _).trans ?_
  rw [Core.whole_setDeltaT]; rfl
theorem whole_setErf (v : DArg N α) : (setErfT R v).whole = setErf R v := by
  refine (Tr.whole_onCore (g := IRM.core) (p := fun m c => { m with core := c }) (fun _ _ => rfl) (fun _ _ _ => rfl) (fun _ => rfl) _).trans ?_
  rw [Core.whole_setErf]; rfl
theorem whole_setDrivers (v : DArg N α) : (setDriversT R v).whole = setDrivers R v := by
  refine (Tr.whole_onCore (g := IRM.core) (p := fun m c => { m with core := c }) (fun _ _ => rfl) (fun _ _ _ => rfl) (fun _ => rfl) _).trans ?_
  rw [Core.whole_setDrivers]; rfl
theorem whole_reset : (resetT (N := N) (α := α)).whole = IRM.reset := by
  funext m
  simp only [resetT, IRM.reset, Tr.whole_bind, Tr.whole_get, Tr.whole_ite, Tr.whole_throw, Py.bind_apply, Py.get_apply]
  split
  · rfl
  · simp only [Tr.whole_assign, Tr.whole_bind, Tr.whole_get, Tr.whole_lift, Py.bind_apply, Py.modify_apply, Py.get_apply, Py.lift_apply,
      Core.erfMags]
    cases h : m.core.erfMag <;> simp [h, Py.bind_apply, Py.modify_apply, Py.throw]
theorem whole_count (m : IRM N α) : (countT (N := N) (α := α)).whole m = ({ m with idx := some (nextIdx m.idx) }, .ok ()) := by
  simp only [countT, Tr.whole_bind, Tr.whole_get, Tr.whole_ite, Tr.whole_assign, Py.bind_apply, Py.get_apply]
  cases h : m.idx with
  | none => simp [nextIdx, Py.modify_apply]
  | some i => simp [nextIdx, Py.modify_apply, Py.bind_apply, Py.get_apply, h]
theorem whole_step : (stepT R).whole = IRM.step R := by
  funext m
  simp only [stepT, IRM.step, Tr.whole_bind, Tr.whole_get, Tr.whole_ite, Py.bind_apply, Py.get_apply, Py.modify_apply, whole_count]
  cases nextIdx m.idx with
  | zero =>
    simp only [firstT, if_true, Tr.whole_bind, Tr.whole_lift, Tr.whole_assign, Tr.whole_get, Py.lift_bind_apply, Py.modify_bind_apply,
      Py.get_bind_apply, onOk_setAt, onOk_ok, Py.modify_apply, asIndex]
  | succ j =>
    simp only [nextT, Option.some.injEq, Nat.add_eq_zero_iff, one_ne_zero, and_false, if_false, Tr.whole_bind,
      Tr.whole_lift, Tr.whole_assign, Tr.whole_get, Py.lift_bind_apply, Py.modify_bind_apply,
      Py.get_bind_apply, onOk_setAt, onOk_ok, Py.modify_apply, asIndex, getPrev_succ, Core.erfPrev_succ]
theorem whole_run : (runT R).whole = IRM.run R := by
  simp only [runT, IRM.run, Tr.whole_bind, Tr.whole_get, Tr.whole_times, whole_step]
end IRM
end

section
variable [DecidableEq α] (R : Registry N α)

/-- the variant without the assignments -/
def TVariant.whole (V : TVariant N α σ) : Variant N α σ where
  name := V.name
  setDeltaT v := (V.setDeltaT v).whole
  setDrivers v := (V.setDrivers v).whole
  reset := V.reset.whole
  run := V.run.whole
  outputs := V.outputs
  saveParas := V.saveParas

theorem TLM.whole_variant : (TLM.tvariant R).whole = TLM.variant R := by
  simp only [TVariant.whole, TLM.tvariant, TLM.variant, TLM.whole_setDeltaT, TLM.whole_setDrivers, TLM.whole_reset, TLM.whole_run]

theorem IRM.whole_variant : (IRM.tvariant R).whole = IRM.variant R := by
  simp only [TVariant.whole, IRM.tvariant, IRM.variant, IRM.whole_setDeltaT, IRM.whole_setDrivers, IRM.whole_reset, IRM.whole_run]

theorem whole_runRow (V : TVariant N α σ) (i : Nat) (row : Row α) : (runRowT V R i row).whole = runRow V.whole R i row := by
  unfold runRowT runRow
  cases hg : row.info.get "unit" with
  | none => rfl
  | some v =>
    cases v with
    | num x => rfl
    | int n => rfl
    | str us =>
      simp only
      cases hp : R.parse us with
      | none => rfl
      | some u =>
        simp only [Tr.whole_bind, Tr.whole_get, Tr.whole_ite, Tr.whole_throw, Tr.whole_pure]
        rfl

theorem whole_runRows (V : TVariant N α σ) (rows : List (Row α)) :
    ∀ i, (runRowsT V R i rows).whole = runRows V.whole R i rows := by
  induction rows with
  | nil => intro i; rfl
  | cons r rest ih =>
    intro i
    simp only [runRowsT, runRows, Tr.whole_bind, whole_runRow, ih, Tr.whole_pure]

theorem whole_runScenarios (V : TVariant N α σ) (dv : String) (scen : ScmRun α) :
    (runScenariosT V R dv scen).whole = runScenarios V.whole R dv scen := by
  simp only [runScenariosT, runScenarios, Tr.whole_bind, Tr.whole_get, Tr.whole_ite, Tr.whole_throw, Tr.whole_lift,
    whole_runRows, Tr.whole_pure]
  rfl

theorem TLM.whole_call (op : TLM.Op N α) : (TLM.callT R op).whole = TLM.call R op := by
  cases op with
  | setDu v => exact whole_setDu R v
  | setDl v => exact whole_setDl R v
  | setLambda0 v => exact whole_setLambda0 R v
  | setA v => exact whole_setA R v
  | setEfficacy v => exact whole_setEfficacy R v
  | setEta v => exact whole_setEta R v
  | setDeltaT v => exact whole_setDeltaT R v
  | setErf v => exact whole_setErf R v
  | setDrivers v => exact whole_setDrivers R v
  | reset => exact whole_reset
  | step => exact whole_step
  | run => exact whole_run
  | runScenarios dv scen =>
    simp only [callT, call, Tr.whole_bind, whole_runScenarios, whole_variant, Tr.whole_pure]

theorem IRM.whole_call (op : IRM.Op N α) : (IRM.callT R op).whole = IRM.call R op := by
  cases op with
  | setQ1 v => exact whole_setQ1 R v
  | setQ2 v => exact whole_setQ2 R v
  | setD1 v => exact whole_setD1 R v
  | setD2 v => exact whole_setD2 R v
  | setEfficacy v => exact whole_setEfficacy R v
  | setDeltaT v => exact whole_setDeltaT R v
  | setErf v => exact whole_setErf R v
  | setDrivers v => exact whole_setDrivers R v
  | reset => exact whole_reset
  | step => exact whole_step R
  | run => exact whole_run R
  | runScenarios dv scen =>
    simp only [callT, call, Tr.whole_bind, whole_runScenarios, whole_variant, Tr.whole_pure]
end
end TwoLayer
