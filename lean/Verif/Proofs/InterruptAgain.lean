import Verif.Proofs.InterruptSet

/-! # Assigning again after an interrupted assignment -/

set_option linter.unusedSimpArgs false
set_option linter.unusedSectionVars false

namespace TwoLayer
variable {N α : Type} [Fintype N] [DecidableEq N] [Arith α]

theorem Core.setErf_over (R : Registry N α) (v : DArg N α) (c : Core N α) (e : Erf N α) (x : Option (List α))
    (h : (Core.setErf R v c).2 = .ok ()) : Core.setErf R v { c with erf := e, erfMag := x } = Core.setErf R v c := by
  cases v with
  | bare a => simp [Core.setErf, Py.throw] at h
  | qty a u =>
    simp only [Core.setErf] at h ⊢
    split at h
    · rw [if_pos (by assumption)]; rfl
    · simp [Py.throw] at h

theorem Core.setDrivers_over (R : Registry N α) (v : DArg N α) (c : Core N α) (e : Erf N α) (x : Option (List α))
    (h : (Core.setDrivers R v c).2 = .ok ()) :
    Core.setDrivers R v { c with erf := e, erfMag := x } = Core.setDrivers R v c := by
  cases v <;>
  · simp only [Core.setDrivers] at h ⊢
    split at h
    · simp [Py.throw] at h
    · rw [if_neg (by assumption)]
      exact Core.setErf_over R _ c e x h

theorem Core.setErfT_erf (R : Registry N α) (v : DArg N α) :
    Tr.Keeps (fun (c : Core N α) e x => ({ c with erf := e, erfMag := x } : Core N α)) (Core.setErfT R v) := by
  cases v with
  | bare a => exact .throw _
  | qty a u => exact .ite (.bind (.assign fun _ => rfl) fun _ => .assign fun _ => rfl) (.throw _)

theorem Core.setDriversT_erf (R : Registry N α) (v : DArg N α) :
    Tr.Keeps (fun (c : Core N α) e x => ({ c with erf := e, erfMag := x } : Core N α)) (Core.setDriversT R v) := by
  cases v <;> exact .ite (.throw _) (Core.setErfT_erf R _)

namespace TLM
variable (R : Registry N α)

theorem setDuT_own (v : Arg N α) : Tr.Keeps (fun (m : TLM N α) q x y => ({ m with du := q, duMag := x, hcuMag := y } : TLM N α)) (setDuT R v) :=
  .bind (.lift _) fun _ => .bind (.assign fun _ => rfl) fun _ => .bind (.assign fun _ => rfl) fun _ => .bind .get fun _ =>
    .bind (.lift _) fun _ => .assign fun _ => rfl

theorem setDu_again (v v' : Arg N α) (k : Nat) (m : TLM N α) (h : (setDu R v' m).2 = .ok ()) :
    setDu R v' ((setDuT R v).cut k m) = setDu R v' m := by
  have e := (setDuT_own R v).cut k m
  generalize (setDuT R v).cut k m = t at e ⊢
  have ht : t = { m with du := t.du, duMag := t.duMag, hcuMag := t.hcuMag } := congrFun (congrFun (congrFun e t.du) t.duMag) t.hcuMag
  rw [ht]
  simp only [setDu, Py.bind_apply, Py.lift_apply] at h ⊢
  cases hq : checkQty R v' "du" R.m with
  | error e => rw [hq] at h; cases h
  | ok q =>
    simp only [hq, Py.modify_apply, Py.get_apply, heatCapacityUpper] at h ⊢
    cases hc : Qty.toUnit R (heatCapacityOf R q) R.jm2c with
    | error e => rw [hc] at h; cases h
    | ok x => rfl

theorem setDlT_own (v : Arg N α) : Tr.Keeps (fun (m : TLM N α) q x y => ({ m with dl := q, dlMag := x, hclMag := y } : TLM N α)) (setDlT R v) :=
  .bind (.lift _) fun _ => .bind (.assign fun _ => rfl) fun _ => .bind (.assign fun _ => rfl) fun _ => .bind .get fun _ =>
    .bind (.lift _) fun _ => .assign fun _ => rfl

theorem setDl_again (v v' : Arg N α) (k : Nat) (m : TLM N α) (h : (setDl R v' m).2 = .ok ()) :
    setDl R v' ((setDlT R v).cut k m) = setDl R v' m := by
  have e := (setDlT_own R v).cut k m
  generalize (setDlT R v).cut k m = t at e ⊢
  have ht : t = { m with dl := t.dl, dlMag := t.dlMag, hclMag := t.hclMag } := congrFun (congrFun (congrFun e t.dl) t.dlMag) t.hclMag
  rw [ht]
  simp only [setDl, Py.bind_apply, Py.lift_apply] at h ⊢
  cases hq : checkQty R v' "dl" R.m with
  | error e => rw [hq] at h; cases h
  | ok q =>
    simp only [hq, Py.modify_apply, Py.get_apply, heatCapacityLower] at h ⊢
    cases hc : Qty.toUnit R (heatCapacityOf R q) R.jm2c with
    | error e => rw [hc] at h; cases h
    | ok x => rfl

theorem setLambda0T_own (v : Arg N α) :
    Tr.Keeps (fun (m : TLM N α) q x => ({ m with lambda0 := q, lambda0Mag := x } : TLM N α)) (setLambda0T R v) :=
  .bind (.lift _) fun _ => .bind (.assign fun _ => rfl) fun _ => .assign fun _ => rfl

theorem setLambda0_again (v v' : Arg N α) (k : Nat) (m : TLM N α) (h : (setLambda0 R v' m).2 = .ok ()) :
    setLambda0 R v' ((setLambda0T R v).cut k m) = setLambda0 R v' m := by
  have e := (setLambda0T_own R v).cut k m
  generalize (setLambda0T R v).cut k m = t at e ⊢
  have ht : t = { m with lambda0 := t.lambda0, lambda0Mag := t.lambda0Mag } := congrFun (congrFun e t.lambda0) t.lambda0Mag
  rw [ht]
  simp only [setLambda0, Py.bind_apply, Py.lift_apply] at h ⊢
  cases hq : checkQty R v' "lambda0" R.wm2c with
  | error e => rw [hq] at h; cases h
  | ok q => rfl

theorem setAT_own (v : Arg N α) :
    Tr.Keeps (fun (m : TLM N α) q x => ({ m with a := q, aMag := x } : TLM N α)) (setAT R v) :=
  .bind (.lift _) fun _ => .bind (.assign fun _ => rfl) fun _ => .assign fun _ => rfl

theorem setA_again (v v' : Arg N α) (k : Nat) (m : TLM N α) (h : (setA R v' m).2 = .ok ()) :
    setA R v' ((setAT R v).cut k m) = setA R v' m := by
  have e := (setAT_own R v).cut k m
  generalize (setAT R v).cut k m = t at e ⊢
  have ht : t = { m with a := t.a, aMag := t.aMag } := congrFun (congrFun e t.a) t.aMag
  rw [ht]
  simp only [setA, Py.bind_apply, Py.lift_apply] at h ⊢
  cases hq : checkQty R v' "a" R.wm2cc with
  | error e => rw [hq] at h; cases h
  | ok q => rfl

theorem setEfficacyT_own (v : Arg N α) :
    Tr.Keeps (fun (m : TLM N α) q x => ({ m with efficacy := q, efficacyMag := x } : TLM N α)) (setEfficacyT R v) :=
  .bind (.lift _) fun _ => .bind (.assign fun _ => rfl) fun _ => .assign fun _ => rfl

theorem setEfficacy_again (v v' : Arg N α) (k : Nat) (m : TLM N α) (h : (setEfficacy R v' m).2 = .ok ()) :
    setEfficacy R v' ((setEfficacyT R v).cut k m) = setEfficacy R v' m := by
  have e := (setEfficacyT_own R v).cut k m
  generalize (setEfficacyT R v).cut k m = t at e ⊢
  have ht : t = { m with efficacy := t.efficacy, efficacyMag := t.efficacyMag } := congrFun (congrFun e t.efficacy) t.efficacyMag
  rw [ht]
  simp only [setEfficacy, Py.bind_apply, Py.lift_apply] at h ⊢
  cases hq : checkQty R v' "efficacy" R.one with
  | error e => rw [hq] at h; cases h
  | ok q => rfl

theorem setEtaT_own (v : Arg N α) :
    Tr.Keeps (fun (m : TLM N α) q x => ({ m with eta := q, etaMag := x } : TLM N α)) (setEtaT R v) :=
  .bind (.lift _) fun _ => .bind (.assign fun _ => rfl) fun _ => .assign fun _ => rfl

theorem setEta_again (v v' : Arg N α) (k : Nat) (m : TLM N α) (h : (setEta R v' m).2 = .ok ()) :
    setEta R v' ((setEtaT R v).cut k m) = setEta R v' m := by
  have e := (setEtaT_own R v).cut k m
  generalize (setEtaT R v).cut k m = t at e ⊢
  have ht : t = { m with eta := t.eta, etaMag := t.etaMag } := congrFun (congrFun e t.eta) t.etaMag
  rw [ht]
  simp only [setEta, Py.bind_apply, Py.lift_apply] at h ⊢
  cases hq : checkQty R v' "eta" R.wm2c with
  | error e => rw [hq] at h; cases h
  | ok q => rfl

theorem setDeltaT_again (v v' : Arg N α) (k : Nat) (m : TLM N α) (h : (setDeltaT R v' m).2 = .ok ()) :
    setDeltaT R v' ((setDeltaTT R v).cut k m) = setDeltaT R v' m := by
  have e : Tr.Keeps (fun (m : TLM N α) q x => ({ m with core := { m.core with deltaT := q, deltaTMag := x } } : TLM N α))
      (setDeltaTT R v) := by
    rw [setDeltaTT_eq]
    exact .bind (.lift _) fun _ => .bind (.assign fun _ => rfl) fun _ => .assign fun _ => rfl
  replace e := e.cut k m
  generalize (setDeltaTT R v).cut k m = t at e ⊢
  have ht : t = { m with core := { m.core with deltaT := t.core.deltaT, deltaTMag := t.core.deltaTMag } } :=
    congrFun (congrFun e t.core.deltaT) t.core.deltaTMag
  rw [ht]
  simp only [setDeltaT, Py.onCore, Core.setDeltaT, Py.bind_apply, Py.lift_apply] at h ⊢
  cases hq : checkQty R v' "delta_t" R.s with
  | error e => rw [hq] at h; cases h
  | ok q => rfl

theorem erf_cut {x : Tr (Core N α) Unit} (hx : Tr.Keeps (fun (c : Core N α) e x => ({ c with erf := e, erfMag := x } : Core N α)) x)
    (k : Nat) (m : TLM N α) : ∃ e y, (Tr.onCore TLM.core (fun m c => { m with core := c }) x).cut k m =
      { m with core := { m.core with erf := e, erfMag := y } } := by
  rw [Tr.cut_onCore (g := TLM.core) (p := fun m c => { m with core := c }) (fun _ _ => rfl) (fun _ _ _ => rfl) (fun _ => rfl)]
  have e := hx.cut k m.core
  generalize x.cut k m.core = t at e ⊢
  have ht : t = { m.core with erf := t.erf, erfMag := t.erfMag } := congrFun (congrFun e t.erf) t.erfMag
  exact ⟨t.erf, t.erfMag, by rw [← ht]⟩

theorem erf_over {y : Py (Core N α) Unit} (hy : ∀ c e x, (y c).2 = .ok () → y { c with erf := e, erfMag := x } = y c)
    (m : TLM N α) (e : Erf N α) (x : Option (List α))
    (h : (Py.onCore TLM.core (fun m c => { m with core := c }) y m).2 = .ok ()) :
    Py.onCore TLM.core (fun m c => { m with core := c }) y { m with core := { m.core with erf := e, erfMag := x } } =
      Py.onCore TLM.core (fun m c => { m with core := c }) y m := by
  simp only [Py.onCore] at h ⊢
  rw [hy m.core e x h]

theorem call_again [DecidableEq α] {op op' : Op N α} (ht : op.target = op'.target) (hs : op.target ≠ none) (k : Nat) (m : TLM N α)
    (h : (call R op' m).2 = .ok ()) : call R op' ((callT R op).cut k m) = call R op' m := by
  have hE : ∀ {x : Tr (Core N α) Unit} {y : Py (Core N α) Unit},
      Tr.Keeps (fun (c : Core N α) e x => ({ c with erf := e, erfMag := x } : Core N α)) x →
      (∀ c e x, (y c).2 = .ok () → y { c with erf := e, erfMag := x } = y c) →
      (Py.onCore TLM.core (fun m c => { m with core := c }) y m).2 = .ok () →
      Py.onCore TLM.core (fun m c => { m with core := c }) y ((Tr.onCore TLM.core (fun m c => { m with core := c }) x).cut k m) =
        Py.onCore TLM.core (fun m c => { m with core := c }) y m := by
    intro x y hx hy hh
    obtain ⟨e, z, hz⟩ := erf_cut hx k m
    rw [hz]
    exact erf_over hy m e z hh
  cases op <;> first
    | exact (hs rfl).elim
    | (cases op' <;> first
        | (exfalso; simp [Op.target] at ht; done)
        | exact setDu_again R _ _ k m h
        | exact setDl_again R _ _ k m h
        | exact setLambda0_again R _ _ k m h
        | exact setA_again R _ _ k m h
        | exact setEfficacy_again R _ _ k m h
        | exact setEta_again R _ _ k m h
        | exact setDeltaT_again R _ _ k m h
        | exact hE (Core.setErfT_erf R _) (Core.setErf_over R _) h
        | exact hE (Core.setErfT_erf R _) (Core.setDrivers_over R _) h
        | exact hE (Core.setDriversT_erf R _) (Core.setErf_over R _) h
        | exact hE (Core.setDriversT_erf R _) (Core.setDrivers_over R _) h)
end TLM

namespace IRM
variable (R : Registry N α)

theorem setQ1T_own (v : Arg N α) :
    Tr.Keeps (fun (m : IRM N α) q x => ({ m with q1 := q, q1Mag := x } : IRM N α)) (setQ1T R v) :=
  .bind (.lift _) fun _ => .bind (.assign fun _ => rfl) fun _ => .assign fun _ => rfl

theorem setQ1_again (v v' : Arg N α) (k : Nat) (m : IRM N α) (h : (setQ1 R v' m).2 = .ok ()) :
    setQ1 R v' ((setQ1T R v).cut k m) = setQ1 R v' m := by
  have e := (setQ1T_own R v).cut k m
  generalize (setQ1T R v).cut k m = t at e ⊢
  have ht : t = { m with q1 := t.q1, q1Mag := t.q1Mag } := congrFun (congrFun e t.q1) t.q1Mag
  rw [ht]
  simp only [setQ1, Py.bind_apply, Py.lift_apply] at h ⊢
  cases hq : checkQty R v' "q1" R.cwm2 with
  | error e => rw [hq] at h; cases h
  | ok q => rfl

theorem setQ2T_own (v : Arg N α) :
    Tr.Keeps (fun (m : IRM N α) q x => ({ m with q2 := q, q2Mag := x } : IRM N α)) (setQ2T R v) :=
  .bind (.lift _) fun _ => .bind (.assign fun _ => rfl) fun _ => .assign fun _ => rfl

theorem setQ2_again (v v' : Arg N α) (k : Nat) (m : IRM N α) (h : (setQ2 R v' m).2 = .ok ()) :
    setQ2 R v' ((setQ2T R v).cut k m) = setQ2 R v' m := by
  have e := (setQ2T_own R v).cut k m
  generalize (setQ2T R v).cut k m = t at e ⊢
  have ht : t = { m with q2 := t.q2, q2Mag := t.q2Mag } := congrFun (congrFun e t.q2) t.q2Mag
  rw [ht]
  simp only [setQ2, Py.bind_apply, Py.lift_apply] at h ⊢
  cases hq : checkQty R v' "q2" R.cwm2 with
  | error e => rw [hq] at h; cases h
  | ok q => rfl

theorem setD1T_own (v : Arg N α) :
    Tr.Keeps (fun (m : IRM N α) q x => ({ m with d1 := q, d1Mag := x } : IRM N α)) (setD1T R v) :=
  .bind (.lift _) fun _ => .bind (.assign fun _ => rfl) fun _ => .assign fun _ => rfl

theorem setD1_again (v v' : Arg N α) (k : Nat) (m : IRM N α) (h : (setD1 R v' m).2 = .ok ()) :
    setD1 R v' ((setD1T R v).cut k m) = setD1 R v' m := by
  have e := (setD1T_own R v).cut k m
  generalize (setD1T R v).cut k m = t at e ⊢
  have ht : t = { m with d1 := t.d1, d1Mag := t.d1Mag } := congrFun (congrFun e t.d1) t.d1Mag
  rw [ht]
  simp only [setD1, Py.bind_apply, Py.lift_apply] at h ⊢
  cases hq : checkQty R v' "d1" R.yr with
  | error e => rw [hq] at h; cases h
  | ok q => rfl

theorem setD2T_own (v : Arg N α) :
    Tr.Keeps (fun (m : IRM N α) q x => ({ m with d2 := q, d2Mag := x } : IRM N α)) (setD2T R v) :=
  .bind (.lift _) fun _ => .bind (.assign fun _ => rfl) fun _ => .assign fun _ => rfl

theorem setD2_again (v v' : Arg N α) (k : Nat) (m : IRM N α) (h : (setD2 R v' m).2 = .ok ()) :
    setD2 R v' ((setD2T R v).cut k m) = setD2 R v' m := by
  have e := (setD2T_own R v).cut k m
  generalize (setD2T R v).cut k m = t at e ⊢
  have ht : t = { m with d2 := t.d2, d2Mag := t.d2Mag } := congrFun (congrFun e t.d2) t.d2Mag
  rw [ht]
  simp only [setD2, Py.bind_apply, Py.lift_apply] at h ⊢
  cases hq : checkQty R v' "d2" R.yr with
  | error e => rw [hq] at h; cases h
  | ok q => rfl

theorem setEfficacyT_own (v : Arg N α) :
    Tr.Keeps (fun (m : IRM N α) q x => ({ m with efficacy := q, efficacyMag := x } : IRM N α)) (setEfficacyT R v) :=
  .bind (.lift _) fun _ => .bind (.assign fun _ => rfl) fun _ => .assign fun _ => rfl

theorem setEfficacy_again (v v' : Arg N α) (k : Nat) (m : IRM N α) (h : (setEfficacy R v' m).2 = .ok ()) :
    setEfficacy R v' ((setEfficacyT R v).cut k m) = setEfficacy R v' m := by
  have e := (setEfficacyT_own R v).cut k m
  generalize (setEfficacyT R v).cut k m = t at e ⊢
  have ht : t = { m with efficacy := t.efficacy, efficacyMag := t.efficacyMag } := congrFun (congrFun e t.efficacy) t.efficacyMag
  rw [ht]
  simp only [setEfficacy, Py.bind_apply, Py.lift_apply] at h ⊢
  cases hq : checkQty R v' "efficacy" R.one with
  | error e => rw [hq] at h; cases h
  | ok q => rfl

theorem setDeltaT_again (v v' : Arg N α) (k : Nat) (m : IRM N α) (h : (setDeltaT R v' m).2 = .ok ()) :
    setDeltaT R v' ((setDeltaTT R v).cut k m) = setDeltaT R v' m := by
  have e : Tr.Keeps (fun (m : IRM N α) q x => ({ m with core := { m.core with deltaT := q, deltaTMag := x } } : IRM N α))
      (setDeltaTT R v) := by
    rw [setDeltaTT_eq]
    exact .bind (.lift _) fun _ => .bind (.assign fun _ => rfl) fun _ => .assign fun _ => rfl
  replace e := e.cut k m
  generalize (setDeltaTT R v).cut k m = t at e ⊢
  have ht : t = { m with core := { m.core with deltaT := t.core.deltaT, deltaTMag := t.core.deltaTMag } } :=
    congrFun (congrFun e t.core.deltaT) t.core.deltaTMag
  rw [ht]
  simp only [setDeltaT, Py.onCore, Core.setDeltaT, Py.bind_apply, Py.lift_apply] at h ⊢
  cases hq : checkQty R v' "delta_t" R.yr with
  | error e => rw [hq] at h; cases h
  | ok q => rfl

theorem erf_cut {x : Tr (Core N α) Unit} (hx : Tr.Keeps (fun (c : Core N α) e x => ({ c with erf := e, erfMag := x } : Core N α)) x)
    (k : Nat) (m : IRM N α) : ∃ e y, (Tr.onCore IRM.core (fun m c => { m with core := c }) x).cut k m =
      { m with core := { m.core with erf := e, erfMag := y } } := by
  rw [Tr.cut_onCore (g := IRM.core) (p := fun m c => { m with core := c }) (fun _ _ => rfl) (fun _ _ _ => rfl) (fun _ => rfl)]
  have e := hx.cut k m.core
  generalize x.cut k m.core = t at e ⊢
  have ht : t = { m.core with erf := t.erf, erfMag := t.erfMag } := congrFun (congrFun e t.erf) t.erfMag
  exact ⟨t.erf, t.erfMag, by rw [← ht]⟩

theorem erf_over {y : Py (Core N α) Unit} (hy : ∀ c e x, (y c).2 = .ok () → y { c with erf := e, erfMag := x } = y c)
    (m : IRM N α) (e : Erf N α) (x : Option (List α))
    (h : (Py.onCore IRM.core (fun m c => { m with core := c }) y m).2 = .ok ()) :
    Py.onCore IRM.core (fun m c => { m with core := c }) y { m with core := { m.core with erf := e, erfMag := x } } =
      Py.onCore IRM.core (fun m c => { m with core := c }) y m := by
  simp only [Py.onCore] at h ⊢
  rw [hy m.core e x h]

theorem call_again [DecidableEq α] {op op' : Op N α} (ht : op.target = op'.target) (hs : op.target ≠ none) (k : Nat) (m : IRM N α)
    (h : (call R op' m).2 = .ok ()) : call R op' ((callT R op).cut k m) = call R op' m := by
  have hE : ∀ {x : Tr (Core N α) Unit} {y : Py (Core N α) Unit},
      Tr.Keeps (fun (c : Core N α) e x => ({ c with erf := e, erfMag := x } : Core N α)) x →
      (∀ c e x, (y c).2 = .ok () → y { c with erf := e, erfMag := x } = y c) →
      (Py.onCore IRM.core (fun m c => { m with core := c }) y m).2 = .ok () →
      Py.onCore IRM.core (fun m c => { m with core := c }) y ((Tr.onCore IRM.core (fun m c => { m with core := c }) x).cut k m) =
        Py.onCore IRM.core (fun m c => { m with core := c }) y m := by
    intro x y hx hy hh
    obtain ⟨e, z, hz⟩ := erf_cut hx k m
    rw [hz]
    exact erf_over hy m e z hh
  cases op <;> first
    | exact (hs rfl).elim
    | (cases op' <;> first
        | (exfalso; simp [Op.target] at ht; done)
        | exact setQ1_again R _ _ k m h
        | exact setQ2_again R _ _ k m h
        | exact setD1_again R _ _ k m h
        | exact setD2_again R _ _ k m h
        | exact setEfficacy_again R _ _ k m h
        | exact setDeltaT_again R _ _ k m h
        | exact hE (Core.setErfT_erf R _) (Core.setErf_over R _) h
        | exact hE (Core.setErfT_erf R _) (Core.setDrivers_over R _) h
        | exact hE (Core.setDriversT_erf R _) (Core.setErf_over R _) h
        | exact hE (Core.setDriversT_erf R _) (Core.setDrivers_over R _) h)
end IRM

end TwoLayer
