import Verif.Proofs.Copies

/-! # Copies of a model object: the calls of both classes -/

set_option linter.unusedSimpArgs false
set_option linter.unusedSectionVars false

namespace TwoLayer

namespace Py.Sees
variable {σ κ β γ : Type} {f : σ → κ}

theorem modify (g : σ → σ) (h : ∀ m m', f m = f m' → f (g m) = f (g m')) : Py.Sees f (Py.modify g) := fun m m' hm => ⟨h m m' hm, rfl⟩

theorem get {k : σ → Py σ β} (h : ∀ m m', f m = f m' → k m = k m') (hk : ∀ m, Py.Sees f (k m)) : Py.Sees f (Py.get >>= k) := by
  intro m m' hm
  show f (k m m).1 = f (k m' m').1 ∧ (k m m).2 = (k m' m').2
  rw [h m m' hm]
  exact hk m' m m' hm

theorem start {h : Py σ Unit} (k : Py σ β) (hs : Py.Sees f h) (hh : ∀ m m', f m = f m' → Ok (h m).2 → h m = h m') :
    Py.Sees f (h >>= fun _ => k) := by
  intro m m' hm
  obtain ⟨h1, h2⟩ := hs m m' hm
  have h3 := hh m m' hm
  simp only [Py.bind_apply]
  rcases e1 : h m with ⟨s, e | b⟩
  · rw [e1] at h1 h2
    rcases e2 : h m' with ⟨s', e' | b'⟩ <;> rw [e2] at h1 h2
    · exact ⟨h1, by simpa using h2⟩
    · cases h2
  · rw [e1] at h3
    rw [← h3 trivial]
    exact ⟨rfl, rfl⟩

theorem ite {c : Prop} [Decidable c] {x y : Py σ β} (hx : Py.Sees f x) (hy : Py.Sees f y) : Py.Sees f (if c then x else y) := by
  split
  · exact hx
  · exact hy
end Py.Sees

namespace Py.Joins
variable {σ κ β γ δ : Type} {f : σ → κ}

theorem get {h : σ → Py σ γ} {x : σ → Py σ β} (hx : ∀ m m', f m = f m' → x m = x m') (hj : ∀ m, Py.Joins f (h m) (x m)) :
    Py.Joins f (Py.get >>= h) (Py.get >>= x) := by
  intro m m' hm hok
  show x m m = x m' m'
  rw [← hx m m' hm]
  exact hj m m m' hm hok

theorem then_ {h : Py σ γ} {x : Py σ β} (hx : Py.Joins f h x) (k : β → Py σ δ) : Py.Joins f h (x >>= k) := by
  intro m m' hm hok
  rw [Py.bind_apply, Py.bind_apply, hx m m' hm hok]

theorem ite {c : Prop} [Decidable c] {h h' : Py σ γ} {x y : Py σ β} (hx : Py.Joins f h x) (hy : Py.Joins f h' y) :
    Py.Joins f (if c then h else h') (if c then x else y) := by
  split
  · exact hx
  · exact hy
end Py.Joins

variable {N α : Type} [Fintype N] [DecidableEq N] [Arith α] [DecidableEq α]

section
variable {σ κ : Type} {f : σ → κ} {V : Variant N α σ} {R : Registry N α}

theorem runRow_sees_joins (hdr : ∀ v, Py.Sees f (V.setDrivers v)) (hre : Py.Sees f V.reset)
    (hj : ∀ m m', f m = f m' → Ok (V.reset m).2 → V.reset m = V.reset m') (i : Nat) (row : Row α) :
    Py.Sees f (runRow V R i row) := by
  unfold runRow
  split
  · dsimp only
    split
    · exact .throw _
    · exact .bind (hdr _) fun _ => .start _ hre hj
  · exact .throw _

theorem runRows_sees (hdr : ∀ v, Py.Sees f (V.setDrivers v)) (hre : Py.Sees f V.reset)
    (hj : ∀ m m', f m = f m' → Ok (V.reset m).2 → V.reset m = V.reset m') (rows : List (Row α)) :
    ∀ i, Py.Sees f (runRows V R i rows) := by
  induction rows with
  | nil => intro i; exact .pure _
  | cons row rest ih => intro i; exact .bind (runRow_sees_joins hdr hre hj i row) fun _ => .bind (ih _) fun _ => .pure _

theorem runScenarios_sees_joins (hs : ∀ m m', f m = f m' → V.saveParas m = V.saveParas m') (hdt : ∀ v, Py.Sees f (V.setDeltaT v))
    (hdr : ∀ v, Py.Sees f (V.setDrivers v)) (hre : Py.Sees f V.reset)
    (hj : ∀ m m', f m = f m' → Ok (V.reset m).2 → V.reset m = V.reset m') (dv : String) (scen : ScmRun α) :
    Py.Sees f (runScenarios V R dv scen) ∧ Py.Joins f (runScenariosHead V R dv scen) (runScenarios V R dv scen) := by
  constructor
  · refine .get (fun m m' h => ?_) fun m => ?_
    · simp only [hs m m' h]
    · exact .ite (.throw _) (.bind (.lift _) fun _ => .bind (hdt _) fun _ => .ite (.throw _)
        (.bind (runRows_sees hdr hre hj _ _) fun _ => .pure _))
  · refine .get (fun m m' h => ?_) fun m => ?_
    · simp only [hs m m' h]
    · refine .ite (.failed _ _) (.bind (.lift _) fun _ => .bind (hdt _) fun _ => .ite (.failed _ _) (.then_ ?_ _))
      generalize (List.map (fun r : Row α => ({ r with info := annotate V.name (parasMeta R (V.saveParas m)) r.info } : Row α))
        (List.filter (selects dv) scen.rows)) = drivers
      cases drivers with
      | nil => exact .failed _ _
      | cons row rest =>
        refine .then_ ?_ _
        unfold runRow
        dsimp only
        cases row.info.get "unit" with
        | none => exact .failed _ _
        | some v =>
          cases v with
          | str us =>
            dsimp only
            cases R.parse us with
            | none => exact .failed _ _
            | some u => exact .bind (hdr _) fun _ => .start _ hj
          | _ => exact .failed _ _
end

namespace TLM
variable (R : Registry N α)

theorem reset_joins {m m' : TLM N α} (h : m.cleared = m'.cleared) :
    (reset m).2 = (reset m').2 ∧ (Ok (reset m).2 → reset m = reset m') := by
  have hc : m.core = m'.core := (congrArg TLM.core h :)
  by_cases hn : m.core.erf.anyNaN = true
  · rw [reset_nan m hn, reset_nan m' (by rw [← hc]; exact hn)]
    exact ⟨rfl, fun h => h.elim⟩
  · have e1 : ∀ k : TLM N α, k.core = m.core → reset k = match m.core.erfMag with
        | none => ({ k with idx := none }, .error .attribute)
        | some l => ({ k with idx := none, tu := nanLike l, tl := nanLike l, rndt := nanLike l }, .ok ()) := by
      intro k hk
      simp only [reset, Py.bind_apply, Py.get_apply, hk]
      refine (congrFun (if_neg hn) k).trans ?_
      cases m.core.erfMag with
      | none => simp [hk]
      | some l => simp [hk]
    rw [e1 m rfl, e1 m' hc.symm]
    cases m.core.erfMag with
    | none => exact ⟨rfl, fun h => h.elim⟩
    | some l =>
      have e2 : ({ m with idx := none, tu := nanLike l, tl := nanLike l, rndt := nanLike l } : TLM N α) =
          { m' with idx := none, tu := nanLike l, tl := nanLike l, rndt := nanLike l } :=
        congrArg (fun k : TLM N α => { k with idx := none, tu := nanLike l, tl := nanLike l, rndt := nanLike l }) h
      simp only [e2]
      exact ⟨trivial, fun _ => trivial⟩

theorem onCore_sees (x : Py (Core N α) Unit) :
    Py.Sees TLM.cleared (Py.onCore TLM.core (fun m c => { m with core := c }) x) := by
  intro m m' h
  have hc : m.core = m'.core := (congrArg TLM.core h :)
  simp only [Py.onCore, hc, and_true]
  exact congrArg (fun k : TLM N α => { k with core := (x m'.core).1 }) h

theorem reset_sees : Py.Sees TLM.cleared (reset (N := N) (α := α)) := fun m m' h => by
  have e : ∀ k : TLM N α, (reset k).1.cleared = k.cleared := fun k => by
    have := resetT_keeps_cleared.whole k
    rwa [whole_reset] at this
  exact ⟨(e m).trans (h.trans (e m').symm), (reset_joins h).1⟩

theorem runScenarios_sees (dv : String) (scen : ScmRun α) :
    Py.Sees TLM.cleared (runScenarios (TLM.variant R) R dv scen) ∧
      Py.Joins TLM.cleared (runScenariosHead (TLM.variant R) R dv scen) (runScenarios (TLM.variant R) R dv scen) :=
  runScenarios_sees_joins (V := TLM.variant R) (f := cleared) (fun m m' h => (congrArg saveParas h :)) (fun _ => onCore_sees _) (fun _ => onCore_sees _)
    reset_sees (fun m m' h => (reset_joins h).2) dv scen

/-- what is in no output array after a call depends on what was in none -/
theorem call_cleared (op : Op N α) {m m' : TLM N α} (h : m.cleared = m'.cleared) :
    (call R op m).1.cleared = (call R op m').1.cleared := by
  have hk : ∀ op : Op N α, op = .reset ∨ op = .step ∨ op = .run → (call R op m).1.cleared = (call R op m').1.cleared := by
    intro op hop
    have e : ∀ k : TLM N α, (call R op k).1.cleared = k.cleared := fun k => by
      rw [← whole_call]
      exact (callT_keeps_cleared R hop).whole k
    rw [e, e, h]
  cases op with
  | setLambda0 v =>
    exact (Py.Sees.bind (Py.Sees.lift _) fun q => Py.Sees.modify _ fun m m' h =>
      congrArg (fun k : TLM N α => { k with lambda0 := q, lambda0Mag := q.magIn R R.wm2c }) h) m m' h |>.1
  | setA v =>
    exact (Py.Sees.bind (Py.Sees.lift _) fun q => Py.Sees.modify _ fun m m' h =>
      congrArg (fun k : TLM N α => { k with a := q, aMag := q.magIn R R.wm2cc }) h) m m' h |>.1
  | setEfficacy v =>
    exact (Py.Sees.bind (Py.Sees.lift _) fun q => Py.Sees.modify _ fun m m' h =>
      congrArg (fun k : TLM N α => { k with efficacy := q, efficacyMag := q.magIn R R.one }) h) m m' h |>.1
  | setEta v =>
    exact (Py.Sees.bind (Py.Sees.lift _) fun q => Py.Sees.modify _ fun m m' h =>
      congrArg (fun k : TLM N α => { k with eta := q, etaMag := q.magIn R R.wm2c }) h) m m' h |>.1
  | setDu v =>
    exact (Py.Sees.bind (Py.Sees.lift _) fun q =>
      Py.Sees.bind (Py.Sees.modify _ fun m m' h => congrArg (fun k : TLM N α => { k with du := q }) h) fun _ =>
      Py.Sees.bind (Py.Sees.modify _ fun m m' h => congrArg (fun k : TLM N α => { k with duMag := q.magIn R R.m }) h) fun _ =>
      Py.Sees.get (fun m m' h => by
        have : m.heatCapacityUpper R = m'.heatCapacityUpper R := (congrArg (TLM.heatCapacityUpper R) h :)
        simp only [this]) fun m => Py.Sees.bind (Py.Sees.lift _) fun q =>
          Py.Sees.modify _ fun m m' h => congrArg (fun k : TLM N α => { k with hcuMag := q.mag }) h) m m' h |>.1
  | setDl v =>
    exact (Py.Sees.bind (Py.Sees.lift _) fun q =>
      Py.Sees.bind (Py.Sees.modify _ fun m m' h => congrArg (fun k : TLM N α => { k with dl := q }) h) fun _ =>
      Py.Sees.bind (Py.Sees.modify _ fun m m' h => congrArg (fun k : TLM N α => { k with dlMag := q.magIn R R.m }) h) fun _ =>
      Py.Sees.get (fun m m' h => by
        have : m.heatCapacityLower R = m'.heatCapacityLower R := (congrArg (TLM.heatCapacityLower R) h :)
        simp only [this]) fun m => Py.Sees.bind (Py.Sees.lift _) fun q =>
          Py.Sees.modify _ fun m m' h => congrArg (fun k : TLM N α => { k with hclMag := q.mag }) h) m m' h |>.1
  | setDeltaT v => exact (onCore_sees _ m m' h).1
  | setErf v => exact (onCore_sees _ m m' h).1
  | setDrivers v => exact (onCore_sees _ m m' h).1
  | reset => exact hk _ (.inl rfl)
  | step => exact hk _ (.inr (.inl rfl))
  | run => exact hk _ (.inr (.inr rfl))
  | runScenarios dv scen => exact (Py.Sees.bind (runScenarios_sees R dv scen).1 fun _ => Py.Sees.pure _) m m' h |>.1

/-- what the proofs use of the class -/
def copying_laws : (copying R).Laws where
  outs_with _ _ := rfl
  with_with _ _ _ := rfl
  with_outs _ := rfl
  κ := TLM N α
  rest := cleared
  rest_with _ _ := rfl
  congr op _ _ h := call_cleared R op h
  merge op m m' h hr := by
    cases op with
    | reset => exact (reset_joins h).2 hr
    | runScenarios dv scen =>
      show (TwoLayer.runScenarios (TLM.variant R) R dv scen >>= fun _ => pure ()) m =
        (TwoLayer.runScenarios (TLM.variant R) R dv scen >>= fun _ => pure ()) m'
      rw [Py.bind_apply, Py.bind_apply, (runScenarios_sees R dv scen).2 m m' h hr]
    | _ => exact hr.elim
end TLM

namespace IRM
variable (R : Registry N α)

theorem reset_joins {m m' : IRM N α} (h : m.cleared = m'.cleared) :
    (reset m).2 = (reset m').2 ∧ (Ok (reset m).2 → reset m = reset m') := by
  have hc : m.core = m'.core := (congrArg IRM.core h :)
  by_cases hn : m.core.erf.anyNaN = true
  · rw [reset_nan m hn, reset_nan m' (by rw [← hc]; exact hn)]
    exact ⟨rfl, fun h => h.elim⟩
  · have e1 : ∀ k : IRM N α, k.core = m.core → reset k = match m.core.erfMag with
        | none => ({ k with idx := none }, .error .attribute)
        | some l => ({ k with idx := none, t1 := nanLike l, t2 := nanLike l, rndt := nanLike l }, .ok ()) := by
      intro k hk
      simp only [reset, Py.bind_apply, Py.get_apply, hk]
      refine (congrFun (if_neg hn) k).trans ?_
      cases m.core.erfMag with
      | none => simp [hk]
      | some l => simp [hk]
    rw [e1 m rfl, e1 m' hc.symm]
    cases m.core.erfMag with
    | none => exact ⟨rfl, fun h => h.elim⟩
    | some l =>
      have e2 : ({ m with idx := none, t1 := nanLike l, t2 := nanLike l, rndt := nanLike l } : IRM N α) =
          { m' with idx := none, t1 := nanLike l, t2 := nanLike l, rndt := nanLike l } :=
        congrArg (fun k : IRM N α => { k with idx := none, t1 := nanLike l, t2 := nanLike l, rndt := nanLike l }) h
      simp only [e2]
      exact ⟨trivial, fun _ => trivial⟩

theorem onCore_sees (x : Py (Core N α) Unit) :
    Py.Sees IRM.cleared (Py.onCore IRM.core (fun m c => { m with core := c }) x) := by
  intro m m' h
  have hc : m.core = m'.core := (congrArg IRM.core h :)
  simp only [Py.onCore, hc, and_true]
  exact congrArg (fun k : IRM N α => { k with core := (x m'.core).1 }) h

theorem reset_sees : Py.Sees IRM.cleared (reset (N := N) (α := α)) := fun m m' h => by
  have e : ∀ k : IRM N α, (reset k).1.cleared = k.cleared := fun k => by
    have := resetT_keeps_cleared.whole k
    rwa [whole_reset] at this
  exact ⟨(e m).trans (h.trans (e m').symm), (reset_joins h).1⟩

theorem runScenarios_sees (dv : String) (scen : ScmRun α) :
    Py.Sees IRM.cleared (runScenarios (IRM.variant R) R dv scen) ∧
      Py.Joins IRM.cleared (runScenariosHead (IRM.variant R) R dv scen) (runScenarios (IRM.variant R) R dv scen) :=
  runScenarios_sees_joins (V := IRM.variant R) (f := cleared) (fun m m' h => (congrArg saveParas h :)) (fun _ => onCore_sees _) (fun _ => onCore_sees _)
    reset_sees (fun m m' h => (reset_joins h).2) dv scen

/-- what is in no output array after a call depends on what was in none -/
theorem call_cleared (op : Op N α) {m m' : IRM N α} (h : m.cleared = m'.cleared) :
    (call R op m).1.cleared = (call R op m').1.cleared := by
  have hk : ∀ op : Op N α, op = .reset ∨ op = .step ∨ op = .run → (call R op m).1.cleared = (call R op m').1.cleared := by
    intro op hop
    have e : ∀ k : IRM N α, (call R op k).1.cleared = k.cleared := fun k => by
      rw [← whole_call]
      exact (callT_keeps_cleared R hop).whole k
    rw [e, e, h]
  cases op with
  | setQ1 v =>
    exact (Py.Sees.bind (Py.Sees.lift _) fun q => Py.Sees.modify _ fun m m' h =>
      congrArg (fun k : IRM N α => { k with q1 := q, q1Mag := q.magIn R R.cwm2 }) h) m m' h |>.1
  | setQ2 v =>
    exact (Py.Sees.bind (Py.Sees.lift _) fun q => Py.Sees.modify _ fun m m' h =>
      congrArg (fun k : IRM N α => { k with q2 := q, q2Mag := q.magIn R R.cwm2 }) h) m m' h |>.1
  | setD1 v =>
    exact (Py.Sees.bind (Py.Sees.lift _) fun q => Py.Sees.modify _ fun m m' h =>
      congrArg (fun k : IRM N α => { k with d1 := q, d1Mag := q.magIn R R.yr }) h) m m' h |>.1
  | setD2 v =>
    exact (Py.Sees.bind (Py.Sees.lift _) fun q => Py.Sees.modify _ fun m m' h =>
      congrArg (fun k : IRM N α => { k with d2 := q, d2Mag := q.magIn R R.yr }) h) m m' h |>.1
  | setEfficacy v =>
    exact (Py.Sees.bind (Py.Sees.lift _) fun q => Py.Sees.modify _ fun m m' h =>
      congrArg (fun k : IRM N α => { k with efficacy := q, efficacyMag := q.magIn R R.one }) h) m m' h |>.1
  | setDeltaT v => exact (onCore_sees _ m m' h).1
  | setErf v => exact (onCore_sees _ m m' h).1
  | setDrivers v => exact (onCore_sees _ m m' h).1
  | reset => exact hk _ (.inl rfl)
  | step => exact hk _ (.inr (.inl rfl))
  | run => exact hk _ (.inr (.inr rfl))
  | runScenarios dv scen => exact (Py.Sees.bind (runScenarios_sees R dv scen).1 fun _ => Py.Sees.pure _) m m' h |>.1

/-- what the proofs use of the class -/
def copying_laws : (copying R).Laws where
  outs_with _ _ := rfl
  with_with _ _ _ := rfl
  with_outs _ := rfl
  κ := IRM N α
  rest := cleared
  rest_with _ _ := rfl
  congr op _ _ h := call_cleared R op h
  merge op m m' h hr := by
    cases op with
    | reset => exact (reset_joins h).2 hr
    | runScenarios dv scen =>
      show (TwoLayer.runScenarios (IRM.variant R) R dv scen >>= fun _ => pure ()) m =
        (TwoLayer.runScenarios (IRM.variant R) R dv scen >>= fun _ => pure ()) m'
      rw [Py.bind_apply, Py.bind_apply, (runScenarios_sees R dv scen).2 m m' h hr]
    | _ => exact hr.elim
end IRM

end TwoLayer
