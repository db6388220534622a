import Verif.Model.Interrupt
import Verif.Spec.Api

/-!
# Histories in which any call may be interrupted

`Spec/Api.lean` has the public calls (`Op`), what they do (`call`) and histories of calls.  Here a call may also be
interrupted: the exception of the interrupt ends it after any number of its assignments.  The program catches it and goes on.
-/

namespace TwoLayer
variable {N α : Type} [Fintype N] [DecidableEq N] [Arith α] [DecidableEq α]

namespace TLM
/-- a public call, assignment by assignment -/
def callT (R : Registry N α) : Op N α → Tr (TLM N α) Unit
  | .setDu v => setDuT R v
  | .setDl v => setDlT R v
  | .setLambda0 v => setLambda0T R v
  | .setA v => setAT R v
  | .setEfficacy v => setEfficacyT R v
  | .setEta v => setEtaT R v
  | .setDeltaT v => setDeltaTT R v
  | .setErf v => setErfT R v
  | .setDrivers v => setDriversT R v
  | .reset => resetT
  | .step => stepT
  | .run => runT
  | .runScenarios dv scen => do let _ ← runScenariosT (TLM.tvariant R) R dv scen; pure ()

/-- the object after a history: each call goes through (`none`) or is interrupted after `k` assignments (`some k`) -/
def afterI (R : Registry N α) (m : TLM N α) (h : List (Op N α × Option Nat)) : TLM N α :=
  h.foldl (fun m e => match e.2 with
    | none => (call R e.1 m).1
    | some k => (callT R e.1).cut k m) m

/-- calls that run the model: everything but the parameters and `run_scenarios` -/
def Op.IsRun : Op N α → Prop
  | .setErf _ | .setDrivers _ | .reset | .step | .run => True
  | _ => False

/-- calls that run the model, `run_scenarios` and the time step it sets included -/
def Op.IsRunOrScenarios : Op N α → Prop
  | .setErf _ | .setDrivers _ | .reset | .step | .run | .setDeltaT _ | .runScenarios _ _ => True
  | _ => False

/-- assignments of a parameter -/
def Op.IsSetter : Op N α → Prop
  | .setDu _ | .setDl _ | .setLambda0 _ | .setA _ | .setEfficacy _ | .setEta _ | .setDeltaT _ => True
  | _ => False

/-- the attribute a call assigns, if it assigns one (`set_drivers` assigns `erf`) -/
def Op.target : Op N α → Option String
  | .setDu _ => some "du"
  | .setDl _ => some "dl"
  | .setLambda0 _ => some "lambda0"
  | .setA _ => some "a"
  | .setEfficacy _ => some "efficacy"
  | .setEta _ => some "eta"
  | .setDeltaT _ => some "delta_t"
  | .setErf _ => some "erf"
  | .setDrivers _ => some "erf"
  | .reset => none
  | .step => none
  | .run => none
  | .runScenarios _ _ => none

/-- assign all parameters -/
def setAll (R : Registry N α) (x : Args N α) : Py (TLM N α) Unit := do
  setDu R x.du
  setDl R x.dl
  setLambda0 R x.lambda0
  setA R x.a
  setEfficacy R x.efficacy
  setEta R x.eta
  setDeltaT R x.deltaT

/-- a simulation returns or raises the same on both objects and leaves the same outputs -/
def SameRuns (R : Registry N α) (m m' : TLM N α) : Prop :=
  ∀ d, (simulate R d m).2 = (simulate R d m').2 ∧
    ((simulate R d m).2 = .ok () → (simulate R d m).1.outputs = (simulate R d m').1.outputs)
end TLM

namespace IRM
/-- a public call, assignment by assignment -/
def callT (R : Registry N α) : Op N α → Tr (IRM N α) Unit
  | .setQ1 v => setQ1T R v
  | .setQ2 v => setQ2T R v
  | .setD1 v => setD1T R v
  | .setD2 v => setD2T R v
  | .setEfficacy v => setEfficacyT R v
  | .setDeltaT v => setDeltaTT R v
  | .setErf v => setErfT R v
  | .setDrivers v => setDriversT R v
  | .reset => resetT
  | .step => stepT R
  | .run => runT R
  | .runScenarios dv scen => do let _ ← runScenariosT (IRM.tvariant R) R dv scen; pure ()

/-- the object after a history: each call goes through (`none`) or is interrupted after `k` assignments (`some k`) -/
def afterI (R : Registry N α) (m : IRM N α) (h : List (Op N α × Option Nat)) : IRM N α :=
  h.foldl (fun m e => match e.2 with
    | none => (call R e.1 m).1
    | some k => (callT R e.1).cut k m) m

/-- calls that run the model: everything but the parameters and `run_scenarios` -/
def Op.IsRun : Op N α → Prop
  | .setErf _ | .setDrivers _ | .reset | .step | .run => True
  | _ => False

/-- calls that run the model, `run_scenarios` and the time step it sets included -/
def Op.IsRunOrScenarios : Op N α → Prop
  | .setErf _ | .setDrivers _ | .reset | .step | .run | .setDeltaT _ | .runScenarios _ _ => True
  | _ => False

/-- assignments of a parameter -/
def Op.IsSetter : Op N α → Prop
  | .setQ1 _ | .setQ2 _ | .setD1 _ | .setD2 _ | .setEfficacy _ | .setDeltaT _ => True
  | _ => False

/-- the attribute a call assigns, if it assigns one (`set_drivers` assigns `erf`) -/
def Op.target : Op N α → Option String
  | .setQ1 _ => some "q1"
  | .setQ2 _ => some "q2"
  | .setD1 _ => some "d1"
  | .setD2 _ => some "d2"
  | .setEfficacy _ => some "efficacy"
  | .setDeltaT _ => some "delta_t"
  | .setErf _ => some "erf"
  | .setDrivers _ => some "erf"
  | .reset => none
  | .step => none
  | .run => none
  | .runScenarios _ _ => none

/-- assign all parameters -/
def setAll (R : Registry N α) (x : Args N α) : Py (IRM N α) Unit := do
  setQ1 R x.q1
  setQ2 R x.q2
  setD1 R x.d1
  setD2 R x.d2
  setEfficacy R x.efficacy
  setDeltaT R x.deltaT

/-- if a simulation goes through on both objects, it reports the same temperatures (the first three outputs) -/
def SameTemps (R : Registry N α) (m m' : IRM N α) : Prop :=
  ∀ d m₁ m₁', simulate R d m = (m₁, .ok ()) → simulate R d m' = (m₁', .ok ()) →
    m₁.outputs.take 3 = m₁'.outputs.take 3
end IRM

end TwoLayer
