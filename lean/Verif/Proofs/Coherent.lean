import Verif.Proofs.Simulate
import Verif.Proofs.Units

/-! # Invariants of API histories -/

set_option linter.unusedSimpArgs false
set_option linter.unusedSectionVars false

namespace TwoLayer

/-- a method preserves a property of the object, whether it returns or raises -/
def Py.Pres {σ β : Type} (P : σ → Prop) (x : Py σ β) : Prop := ∀ s, P s → P (x s).1

namespace Py.Pres
variable {σ β γ : Type} {P : σ → Prop}
theorem pure (a : β) : Py.Pres P (Pure.pure a : Py σ β) := fun _ h => h
theorem get : Py.Pres P (Py.get : Py σ σ) := fun _ h => h
theorem throw (e : Err) : Py.Pres P (Py.throw e : Py σ β) := fun _ h => h
theorem lift (x : Except Err β) : Py.Pres P (Py.lift x : Py σ β) := fun _ h => h
theorem bind {x : Py σ β} {f : β → Py σ γ} (hx : Py.Pres P x) (hf : ∀ a, Py.Pres P (f a)) :
    Py.Pres P (x >>= f) := by
  intro s hs
  have h := hx s hs
  simp only [Py.bind_apply]
  rcases hxs : x s with ⟨s', _ | a⟩
  · rw [hxs] at h; exact h
  · rw [hxs] at h; exact hf a s' h
theorem times {x : Py σ Unit} (hx : Py.Pres P x) (k : Nat) : Py.Pres P (Py.times x k) := by
  induction k with
  | zero => exact pure _
  | succ k ih => exact bind hx fun _ => ih
end Py.Pres

variable {N α : Type} [Fintype N] [DecidableEq N] [Arith α]

/-- `run_scenarios` preserves whatever its building blocks preserve -/
theorem runScenarios_pres [DecidableEq α] {σ : Type} {P : σ → Prop} (V : Variant N α σ) (R : Registry N α)
    (h1 : ∀ v, Py.Pres P (V.setDeltaT v)) (h2 : ∀ v, Py.Pres P (V.setDrivers v)) (h3 : Py.Pres P V.reset)
    (h4 : Py.Pres P V.run) (dv : String) (scen : ScmRun α) : Py.Pres P (runScenarios V R dv scen) := by
  have hrow : ∀ i row, Py.Pres P (runRow V R i row) := by
    intro i row
    unfold runRow
    split
    · dsimp only
      split
      · exact Py.Pres.throw _
      · refine (h2 _).bind fun _ => h3.bind fun _ => h4.bind fun _ => Py.Pres.get.bind fun m => ?_
        split
        · exact Py.Pres.throw _
        · split
          · exact Py.Pres.throw _
          · exact Py.Pres.pure _
    · exact Py.Pres.throw _
  have hrows : ∀ rows i, Py.Pres P (runRows V R i rows) := by
    intro rows
    induction rows with
    | nil => intro i; exact Py.Pres.pure _
    | cons r rest ih => intro i; exact (hrow i r).bind fun _ => (ih _).bind fun _ => Py.Pres.pure _
  unfold runScenarios
  refine Py.Pres.get.bind fun m => ?_
  dsimp only
  split
  · exact Py.Pres.throw _
  · refine (Py.Pres.lift _).bind fun ts => (h1 _).bind fun _ => ?_
    split
    · exact Py.Pres.throw _
    · exact (hrows _ _).bind fun _ => Py.Pres.pure _

/-- a unit acceptable where `v` is expected -/
def UnitOk (R : Registry N α) (u v : Units N) : Prop := u = v ∨ R.compat u v = true

theorem checkQty_ok {R : Registry N α} {v : Arg N α} {name : String} {u : Units N} {q : Qty N α} :
    checkQty R v name u = .ok q ↔ v = .qty q ∧ UnitOk R q.unit u := by
  cases v with
  | bare => simp [checkQty]
  | qty p =>
    simp only [checkQty, Qty.toUnit, UnitOk]
    by_cases h : p.unit = u ∨ R.compat p.unit u = true
    · simp only [if_pos h]
      constructor
      · intro hh; cases hh; exact ⟨rfl, h⟩
      · rintro ⟨hh, _⟩; cases hh; rfl
    · simp only [if_neg h]
      constructor
      · intro hh; cases hh
      · rintro ⟨hh, h'⟩; cases hh; exact absurd h' h

theorem checkQty_bare {R : Registry N α} {name : String} {u : Units N} :
    checkQty R .bare name u = .error (.typeError name) := rfl

theorem checkQty_bad {R : Registry N α} {name : String} {u : Units N} {q : Qty N α} (h : ¬ UnitOk R q.unit u) :
    checkQty R (.qty q) name u = .error (.unitError name) := by
  unfold UnitOk at h
  simp only [checkQty, Qty.toUnit]
  rw [if_neg h]

namespace Registry.Dimensional
variable {R : Registry N α} (D : R.Dimensional)
include D
theorem unitOk_iff (u v : Units N) : UnitOk R u v ↔ dimOf D.dim u = dimOf D.dim v := by
  unfold UnitOk
  rw [D.compat_iff]
  constructor
  · rintro (rfl | h)
    · rfl
    · exact h
  · intro h; exact Or.inr h

/-- water of a valid depth has a valid heat capacity -/
theorem heat_ok {q : Qty N α} (h : UnitOk R q.unit R.m) :
    UnitOk R (TLM.heatCapacityOf R q).unit R.jm2c := by
  rw [D.unitOk_iff] at h ⊢
  simp only [TLM.heatCapacityOf, Qty.mul, Registry.densityWater, Registry.heatCapacityWater, Registry.jm2c,
    Registry.m, dimOf_add, dimOf_sub, dimOf_smul, dimOf_u1, dimOf_neg] at h ⊢
  rw [h]
  funext d
  simp
  ring
end Registry.Dimensional

theorem toUnit_ok {R : Registry N α} {q : Qty N α} {u : Units N} (h : UnitOk R q.unit u) :
    q.toUnit R u = .ok ⟨q.magIn R u, u⟩ := by
  unfold UnitOk at h
  unfold Qty.toUnit
  rw [if_pos h]

/-- time step and drivers agree with their cached magnitudes -/
structure Core.Coherent (R : Registry N α) (u : Units N) (c : Core N α) : Prop where
  dtUnit : UnitOk R c.deltaT.unit u
  dtMag : c.deltaTMag = c.deltaT.magIn R u
  erf : match c.erf with
    | .unset => c.erfMag = none
    | .set vals v => UnitOk R v R.wm2 ∧ c.erfMag = some (magsIn R vals v R.wm2)

/-- every cached number of a two-layer object is the public parameter in model units -/
structure TLM.Coherent (R : Registry N α) (m : TLM N α) : Prop where
  duUnit : UnitOk R m.du.unit R.m
  duMag : m.duMag = m.du.magIn R R.m
  hcuMag : m.hcuMag = (m.heatCapacityUpper R).magIn R R.jm2c
  dlUnit : UnitOk R m.dl.unit R.m
  dlMag : m.dlMag = m.dl.magIn R R.m
  hclMag : m.hclMag = (m.heatCapacityLower R).magIn R R.jm2c
  lambda0Unit : UnitOk R m.lambda0.unit R.wm2c
  lambda0Mag : m.lambda0Mag = m.lambda0.magIn R R.wm2c
  aUnit : UnitOk R m.a.unit R.wm2cc
  aMag : m.aMag = m.a.magIn R R.wm2cc
  efficacyUnit : UnitOk R m.efficacy.unit R.one
  efficacyMag : m.efficacyMag = m.efficacy.magIn R R.one
  etaUnit : UnitOk R m.eta.unit R.wm2c
  etaMag : m.etaMag = m.eta.magIn R R.wm2c
  core : m.core.Coherent R R.s
  lens : m.tl.length = m.tu.length ∧ m.rndt.length = m.tu.length

/-- every cached number of an impulse response object is the public parameter in model units -/
structure IRM.Coherent (R : Registry N α) (m : IRM N α) : Prop where
  q1Unit : UnitOk R m.q1.unit R.cwm2
  q1Mag : m.q1Mag = m.q1.magIn R R.cwm2
  q2Unit : UnitOk R m.q2.unit R.cwm2
  q2Mag : m.q2Mag = m.q2.magIn R R.cwm2
  d1Unit : UnitOk R m.d1.unit R.yr
  d1Mag : m.d1Mag = m.d1.magIn R R.yr
  d2Unit : UnitOk R m.d2.unit R.yr
  d2Mag : m.d2Mag = m.d2.magIn R R.yr
  efficacyUnit : UnitOk R m.efficacy.unit R.one
  efficacyMag : m.efficacyMag = m.efficacy.magIn R R.one
  core : m.core.Coherent R R.yr
  lens : m.t2.length = m.t1.length ∧ m.rndt.length = m.t1.length

section core
variable (R : Registry N α) (u : Units N)
theorem Core.setDeltaT_pres (v : Arg N α) : Py.Pres (Core.Coherent R u) (Core.setDeltaT R u v) := by
  intro c hc
  simp only [Core.setDeltaT, Py.bind_apply, Py.lift_apply]
  cases h : checkQty R v "delta_t" u with
  | error e => exact hc
  | ok q => exact ⟨(checkQty_ok.mp h).2, rfl, hc.erf⟩

theorem Core.setErf_pres (v : DArg N α) : Py.Pres (Core.Coherent R u) (Core.setErf R v) := by
  intro c hc
  cases v with
  | bare a => exact hc
  | qty a w =>
    simp only [Core.setErf]
    split
    · next h => exact ⟨hc.dtUnit, hc.dtMag, h, rfl⟩
    · exact hc

theorem Core.setDrivers_pres (v : DArg N α) : Py.Pres (Core.Coherent R u) (Core.setDrivers R v) := by
  intro c hc
  unfold Core.setDrivers
  cases v <;> (simp only; split)
  · exact hc
  · exact Core.setErf_pres R u _ c hc
  · exact hc
  · exact Core.setErf_pres R u _ c hc
end core

theorem View.step_lens (e : Eng α) (v : View α) (h : v.WF) : (View.step e v).1.WF ∧
    (View.step e v).1.A.length = v.A.length ∧ (View.step e v).1.F = v.F := by
  obtain ⟨h1, h2⟩ := h
  unfold View.step View.WF
  dsimp only
  repeat' split
  all_goals simp [h1, h2]

namespace TLM
variable (R : Registry N α)

theorem step_frame (m : TLM N α) (h : m.tl.length = m.tu.length ∧ m.rndt.length = m.tu.length) :
    ∃ v : View α, (TLM.step m).1 = m.setView v ∧ v.WF ∧ v.A.length = m.tu.length := by
  by_cases hi : nextIdx m.idx < m.tu.length
  · rw [step_eq m h.1 h.2 hi]
    obtain ⟨h1, h2, _⟩ := View.step_lens m.eng m.view h
    exact ⟨_, rfl, h1, h2⟩
  · obtain ⟨e, he, _⟩ := step_over m h.1 h.2 (by omega)
    rw [he]
    exact ⟨{ m.view with idx := some (nextIdx m.idx) }, rfl, h, rfl⟩

theorem step_pres : Py.Pres (Coherent R) (TLM.step (N := N) (α := α)) := by
  intro m hm
  obtain ⟨v, hv, hw, _⟩ := step_frame m hm.lens
  rw [hv]
  exact { hm with lens := hw }

theorem reset_pres : Py.Pres (Coherent R) (TLM.reset (N := N) (α := α)) := by
  intro m hm
  unfold TLM.reset
  simp only [Py.bind_apply, Py.get_apply]
  split
  · exact hm
  · cases m.core.erfMag with
    | none => exact { hm with }
    | some F => exact { hm with lens := by simp [nanLike] }

theorem run_pres : Py.Pres (Coherent R) (TLM.run (N := N) (α := α)) :=
  Py.Pres.get.bind fun _ => (step_pres R).times _

theorem onCore_pres {x : Py (Core N α) Unit} (hx : Py.Pres (Core.Coherent R R.s) x) :
    Py.Pres (Coherent R) (Py.onCore TLM.core (fun m c => { m with core := c }) x) := by
  intro m hm
  exact { hm with core := hx _ hm.core }

theorem setDeltaT_pres (v : Arg N α) : Py.Pres (Coherent R) (TLM.setDeltaT R v) :=
  onCore_pres R (Core.setDeltaT_pres R R.s v)
theorem setErf_pres (v : DArg N α) : Py.Pres (Coherent R) (TLM.setErf R v) :=
  onCore_pres R (Core.setErf_pres R R.s v)
theorem setDrivers_pres (v : DArg N α) : Py.Pres (Coherent R) (TLM.setDrivers R v) :=
  onCore_pres R (Core.setDrivers_pres R R.s v)

theorem setLambda0_pres (v : Arg N α) : Py.Pres (Coherent R) (TLM.setLambda0 R v) := by
  intro m hm
  simp only [TLM.setLambda0, Py.bind_apply, Py.lift_apply]
  cases h : checkQty R v "lambda0" R.wm2c with
  | error e => exact hm
  | ok q => exact { hm with lambda0Unit := (checkQty_ok.mp h).2, lambda0Mag := rfl }
theorem setA_pres (v : Arg N α) : Py.Pres (Coherent R) (TLM.setA R v) := by
  intro m hm
  simp only [TLM.setA, Py.bind_apply, Py.lift_apply]
  cases h : checkQty R v "a" R.wm2cc with
  | error e => exact hm
  | ok q => exact { hm with aUnit := (checkQty_ok.mp h).2, aMag := rfl }
theorem setEfficacy_pres (v : Arg N α) : Py.Pres (Coherent R) (TLM.setEfficacy R v) := by
  intro m hm
  simp only [TLM.setEfficacy, Py.bind_apply, Py.lift_apply]
  cases h : checkQty R v "efficacy" R.one with
  | error e => exact hm
  | ok q => exact { hm with efficacyUnit := (checkQty_ok.mp h).2, efficacyMag := rfl }
theorem setEta_pres (v : Arg N α) : Py.Pres (Coherent R) (TLM.setEta R v) := by
  intro m hm
  simp only [TLM.setEta, Py.bind_apply, Py.lift_apply]
  cases h : checkQty R v "eta" R.wm2c with
  | error e => exact hm
  | ok q => exact { hm with etaUnit := (checkQty_ok.mp h).2, etaMag := rfl }

variable (D : R.Dimensional)
include D

theorem setDu_ok {q : Qty N α} (h : UnitOk R q.unit R.m) (m : TLM N α) :
    TLM.setDu R (.qty q) m = ({ m with
      du := q, duMag := q.magIn R R.m,
      hcuMag := (heatCapacityOf R q).magIn R R.jm2c }, .ok ()) := by
  have h1 : checkQty R (.qty q) "du" R.m = .ok q := checkQty_ok.mpr ⟨rfl, h⟩
  have h2 := toUnit_ok (D.heat_ok h)
  simp only [TLM.setDu, Py.bind_apply, Py.lift_apply, h1, Py.modify_apply, Py.get_apply, heatCapacityUpper, h2]

theorem setDl_ok {q : Qty N α} (h : UnitOk R q.unit R.m) (m : TLM N α) :
    TLM.setDl R (.qty q) m = ({ m with
      dl := q, dlMag := q.magIn R R.m,
      hclMag := (heatCapacityOf R q).magIn R R.jm2c }, .ok ()) := by
  have h1 : checkQty R (.qty q) "dl" R.m = .ok q := checkQty_ok.mpr ⟨rfl, h⟩
  have h2 := toUnit_ok (D.heat_ok h)
  simp only [TLM.setDl, Py.bind_apply, Py.lift_apply, h1, Py.modify_apply, Py.get_apply, heatCapacityLower, h2]

theorem setDu_pres (v : Arg N α) : Py.Pres (Coherent R) (TLM.setDu R v) := by
  intro m hm
  cases h : checkQty R v "du" R.m with
  | error e => simpa only [TLM.setDu, Py.bind_apply, Py.lift_apply, h] using hm
  | ok q =>
    obtain ⟨rfl, hq⟩ := checkQty_ok.mp h
    rw [setDu_ok R D hq]
    exact { hm with duUnit := hq, duMag := rfl, hcuMag := rfl }

theorem setDl_pres (v : Arg N α) : Py.Pres (Coherent R) (TLM.setDl R v) := by
  intro m hm
  cases h : checkQty R v "dl" R.m with
  | error e => simpa only [TLM.setDl, Py.bind_apply, Py.lift_apply, h] using hm
  | ok q =>
    obtain ⟨rfl, hq⟩ := checkQty_ok.mp h
    rw [setDl_ok R D hq]
    exact { hm with dlUnit := hq, dlMag := rfl, hclMag := rfl }

theorem call_pres [DecidableEq α] (op : Op N α) : Py.Pres (Coherent R) (call R op) := by
  cases op with
  | setDu v => exact setDu_pres R D v
  | setDl v => exact setDl_pres R D v
  | setLambda0 v => exact setLambda0_pres R v
  | setA v => exact setA_pres R v
  | setEfficacy v => exact setEfficacy_pres R v
  | setEta v => exact setEta_pres R v
  | setDeltaT v => exact setDeltaT_pres R v
  | setErf v => exact setErf_pres R v
  | setDrivers v => exact setDrivers_pres R v
  | reset => exact reset_pres R
  | step => exact step_pres R
  | run => exact run_pres R
  | runScenarios dv scen =>
    exact (runScenarios_pres (TLM.variant R) R (setDeltaT_pres R) (setDrivers_pres R) (reset_pres R) (run_pres R)
      dv scen).bind fun _ => Py.Pres.pure _

omit D in
theorem init_ok {x : Args N α} {m : TLM N α} (h : init R x = .ok m) :
    ∃ du dl l a ef et dt, x = ⟨.qty du, .qty dl, .qty l, .qty a, .qty ef, .qty et, .qty dt⟩ ∧
      UnitOk R du.unit R.m ∧ UnitOk R dl.unit R.m ∧ UnitOk R l.unit R.wm2c ∧ UnitOk R a.unit R.wm2cc ∧
      UnitOk R ef.unit R.one ∧ UnitOk R et.unit R.wm2c ∧ UnitOk R dt.unit R.s ∧
      m = {
        du, duMag := du.magIn R R.m, hcuMag := (heatCapacityOf R du).magIn R R.jm2c
        dl, dlMag := dl.magIn R R.m, hclMag := (heatCapacityOf R dl).magIn R R.jm2c
        lambda0 := l, lambda0Mag := l.magIn R R.wm2c
        a, aMag := a.magIn R R.wm2cc
        efficacy := ef, efficacyMag := ef.magIn R R.one
        eta := et, etaMag := et.magIn R R.wm2c
        core := { deltaT := dt, deltaTMag := dt.magIn R R.s, erf := .unset, erfMag := none }
        tu := [Arith.nan], tl := [Arith.nan], rndt := [Arith.nan]
        idx := none } := by
  unfold init at h
  simp only [bind, Except.bind, pure, Except.pure] at h
  cases h1 : checkQty R x.du "du" R.m with
  | error e => rw [h1] at h; simp at h
  | ok du =>
  rw [h1] at h; simp only at h
  cases h2 : (heatCapacityOf R du).toUnit R R.jm2c with
  | error e => rw [h2] at h; simp at h
  | ok hcu =>
  rw [h2] at h; simp only at h
  cases h3 : checkQty R x.dl "dl" R.m with
  | error e => rw [h3] at h; simp at h
  | ok dl =>
  rw [h3] at h; simp only at h
  cases h4 : (heatCapacityOf R dl).toUnit R R.jm2c with
  | error e => rw [h4] at h; simp at h
  | ok hcl =>
  rw [h4] at h; simp only at h
  cases h5 : checkQty R x.lambda0 "lambda0" R.wm2c with
  | error e => rw [h5] at h; simp at h
  | ok l =>
  rw [h5] at h; simp only at h
  cases h6 : checkQty R x.a "a" R.wm2cc with
  | error e => rw [h6] at h; simp at h
  | ok a =>
  rw [h6] at h; simp only at h
  cases h7 : checkQty R x.efficacy "efficacy" R.one with
  | error e => rw [h7] at h; simp at h
  | ok ef =>
  rw [h7] at h; simp only at h
  cases h8 : checkQty R x.eta "eta" R.wm2c with
  | error e => rw [h8] at h; simp at h
  | ok et =>
  rw [h8] at h; simp only at h
  cases h9 : checkQty R x.deltaT "delta_t" R.s with
  | error e => rw [h9] at h; simp at h
  | ok dt =>
  rw [h9] at h; simp only [Except.ok.injEq] at h
  obtain ⟨a1, b1⟩ := checkQty_ok.mp h1
  obtain ⟨a3, b3⟩ := checkQty_ok.mp h3
  obtain ⟨a5, b5⟩ := checkQty_ok.mp h5
  obtain ⟨a6, b6⟩ := checkQty_ok.mp h6
  obtain ⟨a7, b7⟩ := checkQty_ok.mp h7
  obtain ⟨a8, b8⟩ := checkQty_ok.mp h8
  obtain ⟨a9, b9⟩ := checkQty_ok.mp h9
  have e2 : hcu.mag = (heatCapacityOf R du).magIn R R.jm2c := by
    unfold Qty.toUnit at h2; split at h2
    · cases h2; rfl
    · cases h2
  have e4 : hcl.mag = (heatCapacityOf R dl).magIn R R.jm2c := by
    unfold Qty.toUnit at h4; split at h4
    · cases h4; rfl
    · cases h4
  refine ⟨du, dl, l, a, ef, et, dt, ?_, b1, b3, b5, b6, b7, b8, b9, ?_⟩
  · cases x; simp_all
  · rw [← h, e2, e4]

omit D in
theorem init_coherent {x : Args N α} {m : TLM N α} (h : init R x = .ok m) : m.Coherent R := by
  obtain ⟨du, dl, l, a, ef, et, dt, -, b1, b2, b3, b4, b5, b6, b7, rfl⟩ := init_ok R h
  exact ⟨b1, rfl, rfl, b2, rfl, rfl, b3, rfl, b4, rfl, b5, rfl, b6, rfl, ⟨b7, rfl, rfl⟩, ⟨rfl, rfl⟩⟩

theorem after_coherent [DecidableEq α] {m : TLM N α} (hm : m.Coherent R) (h : List (Op N α)) :
    (after R m h).Coherent R := by
  induction h generalizing m with
  | nil => exact hm
  | cons op h ih => exact ih (call_pres R D op m hm)

theorem Reachable.coherent [DecidableEq α] {m : TLM N α} (h : Reachable R m) : m.Coherent R := by
  obtain ⟨args, m0, hist, h0, rfl⟩ := h
  exact after_coherent R D (init_coherent R h0) hist
end TLM

namespace IRM
variable (R : Registry N α)

theorem step_frame (m : IRM N α) (h : m.t2.length = m.t1.length ∧ m.rndt.length = m.t1.length) :
    ∃ v : View α, (IRM.step R m).1 = m.setView v ∧ v.WF ∧ v.A.length = m.t1.length := by
  by_cases hi : nextIdx m.idx < m.t1.length
  · rw [step_eq R m h.1 h.2 hi]
    obtain ⟨h1, h2, _⟩ := View.step_lens (m.eng R) m.view h
    exact ⟨_, rfl, h1, h2⟩
  · obtain ⟨e, he, _⟩ := step_over R m h.1 h.2 (by omega)
    rw [he]
    exact ⟨{ m.view with idx := some (nextIdx m.idx) }, rfl, h, rfl⟩

theorem step_pres : Py.Pres (Coherent R) (IRM.step R) := by
  intro m hm
  obtain ⟨v, hv, hw, _⟩ := step_frame R m hm.lens
  rw [hv]
  exact { hm with lens := hw }

theorem reset_pres : Py.Pres (Coherent R) (IRM.reset (N := N) (α := α)) := by
  intro m hm
  unfold IRM.reset
  simp only [Py.bind_apply, Py.get_apply]
  split
  · exact hm
  · cases m.core.erfMag with
    | none => exact { hm with }
    | some F => exact { hm with lens := by simp [nanLike] }

theorem run_pres : Py.Pres (Coherent R) (IRM.run R) :=
  Py.Pres.get.bind fun _ => (step_pres R).times _

theorem onCore_pres {x : Py (Core N α) Unit} (hx : Py.Pres (Core.Coherent R R.yr) x) :
    Py.Pres (Coherent R) (Py.onCore IRM.core (fun m c => { m with core := c }) x) := by
  intro m hm
  exact { hm with core := hx _ hm.core }

theorem setDeltaT_pres (v : Arg N α) : Py.Pres (Coherent R) (IRM.setDeltaT R v) :=
  onCore_pres R (Core.setDeltaT_pres R R.yr v)
theorem setErf_pres (v : DArg N α) : Py.Pres (Coherent R) (IRM.setErf R v) :=
  onCore_pres R (Core.setErf_pres R R.yr v)
theorem setDrivers_pres (v : DArg N α) : Py.Pres (Coherent R) (IRM.setDrivers R v) :=
  onCore_pres R (Core.setDrivers_pres R R.yr v)

theorem setQ1_pres (v : Arg N α) : Py.Pres (Coherent R) (IRM.setQ1 R v) := by
  intro m hm
  simp only [IRM.setQ1, Py.bind_apply, Py.lift_apply]
  cases h : checkQty R v "q1" R.cwm2 with
  | error e => exact hm
  | ok q => exact { hm with q1Unit := (checkQty_ok.mp h).2, q1Mag := rfl }
theorem setQ2_pres (v : Arg N α) : Py.Pres (Coherent R) (IRM.setQ2 R v) := by
  intro m hm
  simp only [IRM.setQ2, Py.bind_apply, Py.lift_apply]
  cases h : checkQty R v "q2" R.cwm2 with
  | error e => exact hm
  | ok q => exact { hm with q2Unit := (checkQty_ok.mp h).2, q2Mag := rfl }
theorem setD1_pres (v : Arg N α) : Py.Pres (Coherent R) (IRM.setD1 R v) := by
  intro m hm
  simp only [IRM.setD1, Py.bind_apply, Py.lift_apply]
  cases h : checkQty R v "d1" R.yr with
  | error e => exact hm
  | ok q => exact { hm with d1Unit := (checkQty_ok.mp h).2, d1Mag := rfl }
theorem setD2_pres (v : Arg N α) : Py.Pres (Coherent R) (IRM.setD2 R v) := by
  intro m hm
  simp only [IRM.setD2, Py.bind_apply, Py.lift_apply]
  cases h : checkQty R v "d2" R.yr with
  | error e => exact hm
  | ok q => exact { hm with d2Unit := (checkQty_ok.mp h).2, d2Mag := rfl }
theorem setEfficacy_pres (v : Arg N α) : Py.Pres (Coherent R) (IRM.setEfficacy R v) := by
  intro m hm
  simp only [IRM.setEfficacy, Py.bind_apply, Py.lift_apply]
  cases h : checkQty R v "efficacy" R.one with
  | error e => exact hm
  | ok q => exact { hm with efficacyUnit := (checkQty_ok.mp h).2, efficacyMag := rfl }

theorem call_pres [DecidableEq α] (op : Op N α) : Py.Pres (Coherent R) (call R op) := by
  cases op with
  | setQ1 v => exact setQ1_pres R v
  | setQ2 v => exact setQ2_pres R v
  | setD1 v => exact setD1_pres R v
  | setD2 v => exact setD2_pres R v
  | setEfficacy v => exact setEfficacy_pres R v
  | setDeltaT v => exact setDeltaT_pres R v
  | setErf v => exact setErf_pres R v
  | setDrivers v => exact setDrivers_pres R v
  | reset => exact reset_pres R
  | step => exact step_pres R
  | run => exact run_pres R
  | runScenarios dv scen =>
    exact (runScenarios_pres (IRM.variant R) R (setDeltaT_pres R) (setDrivers_pres R) (reset_pres R) (run_pres R)
      dv scen).bind fun _ => Py.Pres.pure _

theorem init_ok {x : Args N α} {m : IRM N α} (h : init R x = .ok m) :
    ∃ q1 q2 d1 d2 ef dt, x = ⟨.qty q1, .qty q2, .qty d1, .qty d2, .qty ef, .qty dt⟩ ∧
      UnitOk R q1.unit R.cwm2 ∧ UnitOk R q2.unit R.cwm2 ∧ UnitOk R d1.unit R.yr ∧ UnitOk R d2.unit R.yr ∧
      UnitOk R ef.unit R.one ∧ UnitOk R dt.unit R.yr ∧ d1.ge R d2 = .ok false ∧
      m = {
        q1, q1Mag := q1.magIn R R.cwm2
        q2, q2Mag := q2.magIn R R.cwm2
        d1, d1Mag := d1.magIn R R.yr
        d2, d2Mag := d2.magIn R R.yr
        efficacy := ef, efficacyMag := ef.magIn R R.one
        core := { deltaT := dt, deltaTMag := dt.magIn R R.yr, erf := .unset, erfMag := none }
        t1 := [Arith.nan], t2 := [Arith.nan], rndt := [Arith.nan]
        idx := none } := by
  unfold init at h
  simp only [bind, Except.bind, pure, Except.pure] at h
  cases h1 : checkQty R x.q1 "q1" R.cwm2 with
  | error e => rw [h1] at h; simp at h
  | ok q1 =>
  rw [h1] at h; simp only at h
  cases h2 : checkQty R x.q2 "q2" R.cwm2 with
  | error e => rw [h2] at h; simp at h
  | ok q2 =>
  rw [h2] at h; simp only at h
  cases h3 : checkQty R x.d1 "d1" R.yr with
  | error e => rw [h3] at h; simp at h
  | ok d1 =>
  rw [h3] at h; simp only at h
  cases h4 : checkQty R x.d2 "d2" R.yr with
  | error e => rw [h4] at h; simp at h
  | ok d2 =>
  rw [h4] at h; simp only at h
  cases h5 : checkQty R x.efficacy "efficacy" R.one with
  | error e => rw [h5] at h; simp at h
  | ok ef =>
  rw [h5] at h; simp only at h
  cases h6 : checkQty R x.deltaT "delta_t" R.yr with
  | error e => rw [h6] at h; simp at h
  | ok dt =>
  rw [h6] at h; simp only at h
  cases h7 : d1.ge R d2 with
  | error e => rw [h7] at h; simp at h
  | ok b =>
  rw [h7] at h; simp only at h
  cases b with
  | true => simp at h
  | false =>
  simp only [Bool.false_eq_true, if_false, Except.ok.injEq] at h
  obtain ⟨a1, b1⟩ := checkQty_ok.mp h1
  obtain ⟨a2, b2⟩ := checkQty_ok.mp h2
  obtain ⟨a3, b3⟩ := checkQty_ok.mp h3
  obtain ⟨a4, b4⟩ := checkQty_ok.mp h4
  obtain ⟨a5, b5⟩ := checkQty_ok.mp h5
  obtain ⟨a6, b6⟩ := checkQty_ok.mp h6
  refine ⟨q1, q2, d1, d2, ef, dt, ?_, b1, b2, b3, b4, b5, b6, h7, h.symm⟩
  cases x; simp_all

theorem init_coherent {x : Args N α} {m : IRM N α} (h : init R x = .ok m) : m.Coherent R := by
  obtain ⟨q1, q2, d1, d2, ef, dt, -, b1, b2, b3, b4, b5, b6, -, rfl⟩ := init_ok R h
  exact ⟨b1, rfl, b2, rfl, b3, rfl, b4, rfl, b5, rfl, ⟨b6, rfl, rfl⟩, ⟨rfl, rfl⟩⟩

theorem after_coherent [DecidableEq α] {m : IRM N α} (hm : m.Coherent R) (h : List (Op N α)) :
    (after R m h).Coherent R := by
  induction h generalizing m with
  | nil => exact hm
  | cons op h ih => exact ih (call_pres R op m hm)

theorem Reachable.coherent [DecidableEq α] {m : IRM N α} (h : Reachable R m) : m.Coherent R := by
  obtain ⟨args, m0, hist, h0, rfl⟩ := h
  exact after_coherent R (init_coherent R h0) hist
end IRM

end TwoLayer
