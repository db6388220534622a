import Verif.Model.Scenarios

/-!
# API histories

The public calls of both classes as operations, and the objects a program can hold: constructed
successfully, then any sequence of calls, including calls that raise (the program may catch the exception
and go on).  `simulate` is the documented use: `set_drivers`, `reset`, `run`.
-/

namespace TwoLayer
variable {N α : Type} [Fintype N] [DecidableEq N] [Arith α] [DecidableEq α]

namespace TLM
/-- public calls on a `TwoLayerModel` -/
inductive Op (N α : Type) where
  | setDu (v : Arg N α) | setDl (v : Arg N α) | setLambda0 (v : Arg N α) | setA (v : Arg N α)
  | setEfficacy (v : Arg N α) | setEta (v : Arg N α) | setDeltaT (v : Arg N α)
  | setErf (v : DArg N α) | setDrivers (v : DArg N α)
  | reset | step | run
  | runScenarios (driverVar : String) (scen : ScmRun α)

/-- perform a call; what it returns is forgotten, an exception is kept -/
def call (R : Registry N α) : Op N α → Py (TLM N α) Unit
  | .setDu v => setDu R v
  | .setDl v => setDl R v
  | .setLambda0 v => setLambda0 R v
  | .setA v => setA R v
  | .setEfficacy v => setEfficacy R v
  | .setEta v => setEta R v
  | .setDeltaT v => setDeltaT R v
  | .setErf v => setErf R v
  | .setDrivers v => setDrivers R v
  | .reset => TLM.reset
  | .step => TLM.step
  | .run => TLM.run
  | .runScenarios dv scen => do let _ ← TwoLayer.runScenarios (TLM.variant R) R dv scen; pure ()

/-- the object after a history, exceptions caught -/
def after (R : Registry N α) (m : TLM N α) (h : List (Op N α)) : TLM N α :=
  h.foldl (fun m op => (call R op m).1) m

/-- objects a program can hold -/
def Reachable (R : Registry N α) (m : TLM N α) : Prop :=
  ∃ args m0 h, init R args = .ok m0 ∧ m = after R m0 h

/-- the documented use: set drivers, reset, run -/
def simulate (R : Registry N α) (d : DArg N α) : Py (TLM N α) Unit := do
  setDrivers R d
  TLM.reset
  TLM.run

/-- the public parameters, as read from the object's properties -/
structure Public (N α : Type) where
  du : Qty N α
  dl : Qty N α
  lambda0 : Qty N α
  a : Qty N α
  efficacy : Qty N α
  eta : Qty N α
  deltaT : Qty N α

/-- reading all public parameters -/
def pub (m : TLM N α) : Public N α := ⟨m.du, m.dl, m.lambda0, m.a, m.efficacy, m.eta, m.core.deltaT⟩
end TLM

namespace IRM
/-- public calls on an `ImpulseResponseModel` -/
inductive Op (N α : Type) where
  | setQ1 (v : Arg N α) | setQ2 (v : Arg N α) | setD1 (v : Arg N α) | setD2 (v : Arg N α)
  | setEfficacy (v : Arg N α) | setDeltaT (v : Arg N α)
  | setErf (v : DArg N α) | setDrivers (v : DArg N α)
  | reset | step | run
  | runScenarios (driverVar : String) (scen : ScmRun α)

/-- perform a call -/
def call (R : Registry N α) : Op N α → Py (IRM N α) Unit
  | .setQ1 v => setQ1 R v
  | .setQ2 v => setQ2 R v
  | .setD1 v => setD1 R v
  | .setD2 v => setD2 R v
  | .setEfficacy v => setEfficacy R v
  | .setDeltaT v => setDeltaT R v
  | .setErf v => setErf R v
  | .setDrivers v => setDrivers R v
  | .reset => IRM.reset
  | .step => IRM.step R
  | .run => IRM.run R
  | .runScenarios dv scen => do let _ ← TwoLayer.runScenarios (IRM.variant R) R dv scen; pure ()

/-- the object after a history, exceptions caught -/
def after (R : Registry N α) (m : IRM N α) (h : List (Op N α)) : IRM N α :=
  h.foldl (fun m op => (call R op m).1) m

/-- objects a program can hold -/
def Reachable (R : Registry N α) (m : IRM N α) : Prop :=
  ∃ args m0 h, init R args = .ok m0 ∧ m = after R m0 h

/-- the documented use: set drivers, reset, run -/
def simulate (R : Registry N α) (d : DArg N α) : Py (IRM N α) Unit := do
  setDrivers R d
  IRM.reset
  IRM.run R

/-- the public parameters, as read from the object's properties -/
structure Public (N α : Type) where
  q1 : Qty N α
  q2 : Qty N α
  d1 : Qty N α
  d2 : Qty N α
  efficacy : Qty N α
  deltaT : Qty N α

/-- reading all public parameters -/
def pub (m : IRM N α) : Public N α := ⟨m.q1, m.q2, m.d1, m.d2, m.efficacy, m.core.deltaT⟩
end IRM

end TwoLayer
