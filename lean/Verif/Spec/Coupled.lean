import Verif.Spec.Api
import Verif.Model.Alias

/-!
# Coupled use

A program that drives a model step by step: before every `step()` it writes into the array it gave to `set_drivers`
(`q.magnitude[:] = ...`), for example because the forcing of a year is computed from the year before.
-/

namespace TwoLayer
variable {N α : Type} [Fintype N] [DecidableEq N] [Arith α]

/-- `for k in range(n): before(k); step()` -/
def interleave {σ : Type} (before : Nat → Py σ Unit) (step : Py σ Unit) : Nat → Py σ Unit
  | 0 => pure ()
  | k + 1 => do
    interleave before step k
    before k
    step

/-- `set_drivers(q); reset(); for k in range(n): q.magnitude[:] = g(k); step()` -/
def TLM.coupled (R : Registry N α) (d : DArg N α) (g : Nat → List α) (n : Nat) : Py (TLM N α) Unit := do
  TLM.setDrivers R d
  TLM.reset
  interleave (fun k => TLM.overwrite R (g k)) TLM.step n

/-- the same for `ImpulseResponseModel` -/
def IRM.coupled (R : Registry N α) (d : DArg N α) (g : Nat → List α) (n : Nat) : Py (IRM N α) Unit := do
  IRM.setDrivers R d
  IRM.reset
  interleave (fun k => IRM.overwrite R (g k)) (IRM.step R) n

/-- `set_drivers(q); q.magnitude[:] = new; reset(); run()` -/
def TLM.simulateChanged (R : Registry N α) (d : DArg N α) (new : List α) : Py (TLM N α) Unit := do
  TLM.setDrivers R d
  TLM.overwrite R new
  TLM.reset
  TLM.run

/-- the same for `ImpulseResponseModel` -/
def IRM.simulateChanged (R : Registry N α) (d : DArg N α) (new : List α) : Py (IRM N α) Unit := do
  IRM.setDrivers R d
  IRM.overwrite R new
  IRM.reset
  IRM.run R

/-- `set_drivers(d)`, then `d.ito(v)` in place by the caller, then `reset()`, `run()` -/
def TLM.simulateIto (R : Registry N α) (d : DArg N α) (v : Units N) : Py (TLM N α) Unit := do
  TLM.setDrivers R d
  TLM.itoErf R v
  TLM.reset
  TLM.run

/-- the same for `ImpulseResponseModel` -/
def IRM.simulateIto (R : Registry N α) (d : DArg N α) (v : Units N) : Py (IRM N α) Unit := do
  IRM.setDrivers R d
  IRM.itoErf R v
  IRM.reset
  IRM.run R

end TwoLayer
