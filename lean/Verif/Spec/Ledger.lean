import Verif.Spec.Observe
import Verif.Spec.Scenarios

/-!
# What the public parameters of an object are after a history of calls

A record of what was assigned, kept without looking at the object.
-/

namespace TwoLayer
variable {N α : Type} [Fintype N] [DecidableEq N] [Arith α]

/-- `Stored R u old v new`: a parameter of unit `u` that was `old` is `new` after trying to assign `v` -/
inductive Stored (R : Registry N α) (u : Units N) (old : Qty N α) : Arg N α → Qty N α → Prop
  | bare : Stored R u old .bare old
  | refused {q : Qty N α} : ¬ Convertible R q u → Stored R u old (.qty q) old
  | accepted {q : Qty N α} : Convertible R q u → Stored R u old (.qty q) q

/-- `StepOf R dv scen old new`: `delta_t` after `run_scenarios(scen, dv)`, successful or not: the step of the time axis, if
it has one and there is something to run -/
inductive StepOf (R : Registry N α) (dv : String) (scen : ScmRun α) (old : Qty N α) : Qty N α → Prop
  | step {dt : Qty N α} : (∃ r ∈ scen.rows, Selected dv r) → AxisStep R scen.times dt → StepOf R dv scen old dt
  | nothing : (¬ ∃ r ∈ scen.rows, Selected dv r) → StepOf R dv scen old old
  | noStep : (¬ ∃ dt : Qty N α, AxisStep R scen.times dt) → StepOf R dv scen old old

/-- public parameters of a two-layer object before and after one call -/
inductive TLM.Becomes (R : Registry N α) (p : TLM.Public N α) : TLM.Op N α → TLM.Public N α → Prop
  | du {v q} : Stored R R.m p.du v q → Becomes R p (.setDu v) { p with du := q }
  | dl {v q} : Stored R R.m p.dl v q → Becomes R p (.setDl v) { p with dl := q }
  | lambda0 {v q} : Stored R R.wm2c p.lambda0 v q → Becomes R p (.setLambda0 v) { p with lambda0 := q }
  | a {v q} : Stored R R.wm2cc p.a v q → Becomes R p (.setA v) { p with a := q }
  | efficacy {v q} : Stored R R.one p.efficacy v q → Becomes R p (.setEfficacy v) { p with efficacy := q }
  | eta {v q} : Stored R R.wm2c p.eta v q → Becomes R p (.setEta v) { p with eta := q }
  | deltaT {v q} : Stored R R.s p.deltaT v q → Becomes R p (.setDeltaT v) { p with deltaT := q }
  | setErf {d} : Becomes R p (.setErf d) p
  | setDrivers {d} : Becomes R p (.setDrivers d) p
  | reset : Becomes R p .reset p
  | step : Becomes R p .step p
  | run : Becomes R p .run p
  | runScenarios {dv scen q} : StepOf R dv scen p.deltaT q → Becomes R p (.runScenarios dv scen) { p with deltaT := q }

/-- public parameters of an impulse response object before and after one call -/
inductive IRM.Becomes (R : Registry N α) (p : IRM.Public N α) : IRM.Op N α → IRM.Public N α → Prop
  | q1 {v q} : Stored R R.cwm2 p.q1 v q → Becomes R p (.setQ1 v) { p with q1 := q }
  | q2 {v q} : Stored R R.cwm2 p.q2 v q → Becomes R p (.setQ2 v) { p with q2 := q }
  | d1 {v q} : Stored R R.yr p.d1 v q → Becomes R p (.setD1 v) { p with d1 := q }
  | d2 {v q} : Stored R R.yr p.d2 v q → Becomes R p (.setD2 v) { p with d2 := q }
  | efficacy {v q} : Stored R R.one p.efficacy v q → Becomes R p (.setEfficacy v) { p with efficacy := q }
  | deltaT {v q} : Stored R R.yr p.deltaT v q → Becomes R p (.setDeltaT v) { p with deltaT := q }
  | setErf {d} : Becomes R p (.setErf d) p
  | setDrivers {d} : Becomes R p (.setDrivers d) p
  | reset : Becomes R p .reset p
  | step : Becomes R p .step p
  | run : Becomes R p .run p
  | runScenarios {dv scen q} : StepOf R dv scen p.deltaT q → Becomes R p (.runScenarios dv scen) { p with deltaT := q }

/-- the drivers before and after assigning `erf` -/
inductive StoredErf (R : Registry N α) (old : Erf N α) : DArg N α → Erf N α → Prop
  | bare {a} : StoredErf R old (.bare a) old
  | refused {a u} : ¬ Convertible R ⟨Arith.nan, u⟩ R.wm2 → StoredErf R old (.qty a u) old
  | accepted {a u} : Convertible R ⟨Arith.nan, u⟩ R.wm2 → StoredErf R old (.qty a u) (.set a.vals u)

/-- number of dimensions of a driver argument -/
def DArg.dims : DArg N α → Nat
  | .bare a => a.ndim
  | .qty a _ => a.ndim

/-- the drivers before and after `set_drivers`: as assigning `erf`, but nothing happens unless there is one dimension -/
inductive StoredDrivers (R : Registry N α) (old : Erf N α) : DArg N α → Erf N α → Prop
  | refused {d} : d.dims ≠ 1 → StoredDrivers R old d old
  | accepted {d e} : d.dims = 1 → StoredErf R old d e → StoredDrivers R old d e

/-- the drivers of a two-layer object before and after a call other than `run_scenarios` -/
inductive TLM.BecomesErf (R : Registry N α) (e : Erf N α) : TLM.Op N α → Erf N α → Prop
  | erf {d e'} : StoredErf R e d e' → BecomesErf R e (.setErf d) e'
  | drivers {d e'} : StoredDrivers R e d e' → BecomesErf R e (.setDrivers d) e'
  | other {op} : (∀ d, op ≠ .setErf d) → (∀ d, op ≠ .setDrivers d) → (∀ dv scen, op ≠ .runScenarios dv scen) →
      BecomesErf R e op e

/-- the drivers of an impulse response object before and after a call other than `run_scenarios` -/
inductive IRM.BecomesErf (R : Registry N α) (e : Erf N α) : IRM.Op N α → Erf N α → Prop
  | erf {d e'} : StoredErf R e d e' → BecomesErf R e (.setErf d) e'
  | drivers {d e'} : StoredDrivers R e d e' → BecomesErf R e (.setDrivers d) e'
  | other {op} : (∀ d, op ≠ .setErf d) → (∀ d, op ≠ .setDrivers d) → (∀ dv scen, op ≠ .runScenarios dv scen) →
      BecomesErf R e op e

/-- a record carried along a history -/
inductive Ledger {P O : Type} (becomes : P → O → P → Prop) : P → List O → P → Prop
  | nil {p} : Ledger becomes p [] p
  | cons {p p' p'' o h} : becomes p o p' → Ledger becomes p' h p'' → Ledger becomes p (o :: h) p''

end TwoLayer
