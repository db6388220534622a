import Verif.Model.Scenarios

/-!
# Every method, one attribute assignment at a time

Python delivers an interrupt (Ctrl-C, a timeout signal, a memory error) between two assignments of attributes or array cells,
so a call can end with only some of its assignments made.  `Py` (Model/Num) does not see this: two neighbouring assignments
are one `modify` there.  Here every method is written out again with exactly one `assign` per assignment of the source, and
can be stopped after any of them.

Simplification: one assignment is atomic, an array `a[i] = x` is one assignment, and what a statement reads it reads at once.
Every statement reads the attributes anew, the time index included.
-/

namespace TwoLayer

/-- A method, assignment by assignment (e.g. `base.py:94-98`): finished, returning or raising; or it reads the object and goes on;
or it assigns one attribute or one array cell and goes on. -/
inductive Tr (σ β : Type) where
  | done (r : Except Err β)
  | read (k : σ → Tr σ β)
  | write (f : σ → σ) (k : Tr σ β)

namespace Tr
variable {σ β γ : Type}

/-- one after the other (e.g. `base.py:94-98`); an exception ends the whole -/
def bind : Tr σ β → (β → Tr σ γ) → Tr σ γ
  | done (.ok a), f => f a
  | done (.error e), _ => done (.error e)
  | read k, f => read fun s => bind (k s) f
  | write g k, f => write g (bind k f)

/-- statements one after the other (e.g. `base.py:94-98`) -/
instance : Monad (Tr σ) where
  pure a := done (.ok a)
  bind := bind

/-- read the object, e.g. `two_layer_model.py:217` -/
def get : Tr σ σ := read fun s => done (.ok s)
/-- assign one attribute or one array cell, e.g. `two_layer_model.py:204` -/
def assign (f : σ → σ) : Tr σ Unit := write f (done (.ok ()))
/-- `raise`, e.g. `two_layer_model.py:188` -/
def throw (e : Err) : Tr σ β := done (.error e)
/-- evaluate an expression that may raise, e.g. `two_layer_model.py:215` -/
def lift (x : Except Err β) : Tr σ β := done x

/-- Carry the method out, e.g. `base.py:94-98`: the object after each assignment in turn, the object at the end, and what is returned
or raised. -/
def exec : Tr σ β → σ → List σ × σ × Except Err β
  | done r, s => ([], s, r)
  | read k, s => exec (k s) s
  | write f k, s => (f s :: (exec k (f s)).1, (exec k (f s)).2)

/-- the whole method, uninterrupted, e.g. `base.py:94-98` -/
def whole (x : Tr σ β) : Py σ β := fun s => (x.exec s).2

/-- The object left behind when the method is interrupted after its `k`-th assignment, e.g. after `base.py:97`.  A method that makes fewer assignments
ends by itself. -/
def cut (x : Tr σ β) (k : Nat) (s : σ) : σ := (s :: (x.exec s).1)[k]?.getD (x.exec s).2.1

/-- `k` successive calls, the loop of `_run`, `two_layer_model.py:198-200`, `impulse_response_model.py:169-171` -/
def times (x : Tr σ Unit) : Nat → Tr σ Unit
  | 0 => pure ()
  | k + 1 => do x; times x k

/-- a method of the base class, inheritance from `TwoLayerVariant`, `base.py:78` -/
def onCore {κ : Type} (getC : σ → κ) (setC : σ → κ → σ) : Tr κ β → Tr σ β
  | done r => done r
  | read k => read fun s => onCore getC setC (k (getC s))
  | write f k => write (fun s => setC s (f (getC s))) (onCore getC setC k)
end Tr

variable {N α : Type} [Fintype N] [DecidableEq N] [Arith α]

/-- setter of `delta_t`, `base.py:94-98` -/
def Core.setDeltaTT (R : Registry N α) (u : Units N) (v : Arg N α) : Tr (Core N α) Unit := do
  let q ← Tr.lift (checkQty R v "delta_t" u)
  Tr.assign fun c => { c with deltaT := q }
  Tr.assign fun c => { c with deltaTMag := q.magIn R u }

/-- setter of `erf`, `base.py:108-112` -/
def Core.setErfT (R : Registry N α) (v : DArg N α) : Tr (Core N α) Unit :=
  match v with
  | .bare _ => Tr.throw (.typeError "erf")
  | .qty a u =>
    if u = R.wm2 ∨ R.compat u R.wm2 = true then do
      Tr.assign fun c => { c with erf := .set a.vals u }
      Tr.assign fun c => { c with erfMag := some (magsIn R a.vals u R.wm2) }
    else Tr.throw (.unitError "erf")

/-- `TwoLayerVariant.set_drivers`, `base.py:114-133` -/
def Core.setDriversT (R : Registry N α) (v : DArg N α) : Tr (Core N α) Unit :=
  let nd := match v with
    | .bare a => a.ndim
    | .qty a _ => a.ndim
  if nd ≠ 1 then Tr.throw (.assertion "erf must be one-dimensional")
  else Core.setErfT R v

/-- `self._timestep_idx` used as an index: NaN raises `IndexError`.  Only other threads make it NaN here; `two_layer_model.py:210`,
`impulse_response_model.py:181` -/
def asIndex : Option Nat → Except Err Nat
  | some i => .ok i
  | none => .error .index

/-- `a[i - 1]`; index −1 is the last cell.  Only other threads make `i` zero here; `two_layer_model.py:217`, `impulse_response_model.py:188` -/
def getPrev (l : List α) (i : Nat) : Except Err α := getAt l (if i = 0 then l.length - 1 else i - 1)

/-- `self._erf_mag[i - 1]`, `two_layer_model.py:219`, `impulse_response_model.py:191` -/
def Core.erfPrev (c : Core N α) (i : Nat) : Except Err α :=
  match c.erfMag with
  | none => .error .attribute
  | some l => getPrev l i

/-- `self._erf_mag`, `two_layer_model.py:194`, `impulse_response_model.py:165` -/
def Core.erfMags (c : Core N α) : Except Err (List α) :=
  match c.erfMag with
  | none => .error .attribute
  | some l => .ok l

namespace TLM
variable (R : Registry N α)

/-- setter of `du`, `two_layer_model.py:88-95` -/
def setDuT (v : Arg N α) : Tr (TLM N α) Unit := do
  let q ← Tr.lift (checkQty R v "du" R.m)
  Tr.assign fun m => { m with du := q }
  Tr.assign fun m => { m with duMag := q.magIn R R.m }
  let m ← Tr.get
  let h ← Tr.lift ((m.heatCapacityUpper R).toUnit R R.jm2c)
  Tr.assign fun m => { m with hcuMag := h.mag }

/-- setter of `dl`, `two_layer_model.py:113-120` -/
def setDlT (v : Arg N α) : Tr (TLM N α) Unit := do
  let q ← Tr.lift (checkQty R v "dl" R.m)
  Tr.assign fun m => { m with dl := q }
  Tr.assign fun m => { m with dlMag := q.magIn R R.m }
  let m ← Tr.get
  let h ← Tr.lift ((m.heatCapacityLower R).toUnit R R.jm2c)
  Tr.assign fun m => { m with hclMag := h.mag }

/-- setter of `lambda0`, `two_layer_model.py:138-142` -/
def setLambda0T (v : Arg N α) : Tr (TLM N α) Unit := do
  let q ← Tr.lift (checkQty R v "lambda0" R.wm2c)
  Tr.assign fun m => { m with lambda0 := q }
  Tr.assign fun m => { m with lambda0Mag := q.magIn R R.wm2c }

/-- setter of `a`, `two_layer_model.py:152-156` -/
def setAT (v : Arg N α) : Tr (TLM N α) Unit := do
  let q ← Tr.lift (checkQty R v "a" R.wm2cc)
  Tr.assign fun m => { m with a := q }
  Tr.assign fun m => { m with aMag := q.magIn R R.wm2cc }

/-- setter of `efficacy`, `two_layer_model.py:166-170` -/
def setEfficacyT (v : Arg N α) : Tr (TLM N α) Unit := do
  let q ← Tr.lift (checkQty R v "efficacy" R.one)
  Tr.assign fun m => { m with efficacy := q }
  Tr.assign fun m => { m with efficacyMag := q.magIn R R.one }

/-- setter of `eta`, `two_layer_model.py:180-184` -/
def setEtaT (v : Arg N α) : Tr (TLM N α) Unit := do
  let q ← Tr.lift (checkQty R v "eta" R.wm2c)
  Tr.assign fun m => { m with eta := q }
  Tr.assign fun m => { m with etaMag := q.magIn R R.wm2c }

/-- inherited setter of `delta_t`, `base.py:94-98`, `two_layer_model.py:34` -/
def setDeltaTT (v : Arg N α) : Tr (TLM N α) Unit :=
  Tr.onCore TLM.core (fun m c => { m with core := c }) (Core.setDeltaTT R R.s v)

/-- inherited setter of `erf`, `base.py:108-112` -/
def setErfT (v : DArg N α) : Tr (TLM N α) Unit :=
  Tr.onCore TLM.core (fun m c => { m with core := c }) (Core.setErfT R v)

/-- inherited `set_drivers`, `base.py:114-133` -/
def setDriversT (v : DArg N α) : Tr (TLM N α) Unit :=
  Tr.onCore TLM.core (fun m c => { m with core := c }) (Core.setDriversT R v)

/-- `_reset`, `two_layer_model.py:186-196` -/
def resetT : Tr (TLM N α) Unit := do
  let m ← Tr.get
  if m.core.erf.anyNaN then Tr.throw .modelState
  else do
    Tr.assign fun m => { m with idx := none }
    let l ← Tr.lift (← Tr.get).core.erfMags
    Tr.assign fun m => { m with tu := nanLike l }
    let l ← Tr.lift (← Tr.get).core.erfMags
    Tr.assign fun m => { m with tl := nanLike l }
    let l ← Tr.lift (← Tr.get).core.erfMags
    Tr.assign fun m => { m with rndt := nanLike l }

/-- the time index, `two_layer_model.py:203-207` -/
def countT : Tr (TLM N α) Unit := do
  let m ← Tr.get
  if m.idx = none then Tr.assign fun m => { m with idx := some 0 }
  else do
    let i := (← Tr.get).idx
    Tr.assign fun m => { m with idx := i.map (· + 1) }

/-- the first step, `two_layer_model.py:209-212` -/
def firstT : Tr (TLM N α) Unit := do
  let m ← Tr.get
  let i ← Tr.lift (asIndex m.idx)
  let _ ← Tr.lift (setAt m.tu i (Arith.dec 0 1))
  Tr.assign fun m => { m with tu := m.tu.set i (Arith.dec 0 1) }
  let m ← Tr.get
  let i ← Tr.lift (asIndex m.idx)
  let _ ← Tr.lift (setAt m.tl i (Arith.dec 0 1))
  Tr.assign fun m => { m with tl := m.tl.set i (Arith.dec 0 1) }
  let m ← Tr.get
  let i ← Tr.lift (asIndex m.idx)
  let _ ← Tr.lift (setAt m.rndt i (Arith.dec 0 1))
  Tr.assign fun m => { m with rndt := m.rndt.set i (Arith.dec 0 1) }

/-- every other step, `two_layer_model.py:214-243` -/
def nextT : Tr (TLM N α) Unit := do
  -- lines 215-225
  let m ← Tr.get
  let i ← Tr.lift (asIndex m.idx)
  let tuPrev ← Tr.lift (getPrev m.tu i)
  let tlPrev ← Tr.lift (getPrev m.tl i)
  let erf ← Tr.lift (m.core.erfPrev i)
  let x := calcNextTempUpper m.core.deltaTMag tuPrev tlPrev erf m.lambda0Mag m.aMag m.efficacyMag
    m.etaMag m.hcuMag
  let _ ← Tr.lift (setAt m.tu i x)
  Tr.assign fun m => { m with tu := m.tu.set i x }
  -- lines 227-233
  let m ← Tr.get
  let i ← Tr.lift (asIndex m.idx)
  let tlPrev ← Tr.lift (getPrev m.tl i)
  let tuPrev ← Tr.lift (getPrev m.tu i)
  let y := calcNextTempLower m.core.deltaTMag tlPrev tuPrev m.etaMag m.hclMag
  let _ ← Tr.lift (setAt m.tl i y)
  Tr.assign fun m => { m with tl := m.tl.set i y }
  -- lines 235-243
  let m ← Tr.get
  let i ← Tr.lift (asIndex m.idx)
  let tlNow ← Tr.lift (getAt m.tl i)
  let tlPrev ← Tr.lift (getPrev m.tl i)
  let tuNow ← Tr.lift (getAt m.tu i)
  let tuPrev ← Tr.lift (getPrev m.tu i)
  let z := calcNextRndt m.core.deltaTMag tlNow tlPrev m.hclMag tuNow tuPrev m.hcuMag
  let _ ← Tr.lift (setAt m.rndt i z)
  Tr.assign fun m => { m with rndt := m.rndt.set i z }

/-- `_step`, `two_layer_model.py:202-243` -/
def stepT : Tr (TLM N α) Unit := do
  countT
  let m ← Tr.get
  if m.idx = some 0 then firstT else nextT

/-- `_run`, `two_layer_model.py:198-200` -/
def runT : Tr (TLM N α) Unit := do
  let m ← Tr.get
  Tr.times stepT m.core.erf.length
end TLM

namespace IRM
variable (R : Registry N α)

/-- setter of `d1`, `impulse_response_model.py:95-99` -/
def setD1T (v : Arg N α) : Tr (IRM N α) Unit := do
  let q ← Tr.lift (checkQty R v "d1" R.yr)
  Tr.assign fun m => { m with d1 := q }
  Tr.assign fun m => { m with d1Mag := q.magIn R R.yr }

/-- setter of `d2`, `impulse_response_model.py:109-113` -/
def setD2T (v : Arg N α) : Tr (IRM N α) Unit := do
  let q ← Tr.lift (checkQty R v "d2" R.yr)
  Tr.assign fun m => { m with d2 := q }
  Tr.assign fun m => { m with d2Mag := q.magIn R R.yr }

/-- setter of `q1`, `impulse_response_model.py:123-127` -/
def setQ1T (v : Arg N α) : Tr (IRM N α) Unit := do
  let q ← Tr.lift (checkQty R v "q1" R.cwm2)
  Tr.assign fun m => { m with q1 := q }
  Tr.assign fun m => { m with q1Mag := q.magIn R R.cwm2 }

/-- setter of `q2`, `impulse_response_model.py:137-141` -/
def setQ2T (v : Arg N α) : Tr (IRM N α) Unit := do
  let q ← Tr.lift (checkQty R v "q2" R.cwm2)
  Tr.assign fun m => { m with q2 := q }
  Tr.assign fun m => { m with q2Mag := q.magIn R R.cwm2 }

/-- setter of `efficacy`, `impulse_response_model.py:151-155` -/
def setEfficacyT (v : Arg N α) : Tr (IRM N α) Unit := do
  let q ← Tr.lift (checkQty R v "efficacy" R.one)
  Tr.assign fun m => { m with efficacy := q }
  Tr.assign fun m => { m with efficacyMag := q.magIn R R.one }

/-- inherited setter of `delta_t`, `base.py:94-98`, `impulse_response_model.py:36` -/
def setDeltaTT (v : Arg N α) : Tr (IRM N α) Unit :=
  Tr.onCore IRM.core (fun m c => { m with core := c }) (Core.setDeltaTT R R.yr v)

/-- inherited setter of `erf`, `base.py:108-112` -/
def setErfT (v : DArg N α) : Tr (IRM N α) Unit :=
  Tr.onCore IRM.core (fun m c => { m with core := c }) (Core.setErfT R v)

/-- inherited `set_drivers`, `base.py:114-133` -/
def setDriversT (v : DArg N α) : Tr (IRM N α) Unit :=
  Tr.onCore IRM.core (fun m c => { m with core := c }) (Core.setDriversT R v)

/-- `_reset`, `impulse_response_model.py:157-167` -/
def resetT : Tr (IRM N α) Unit := do
  let m ← Tr.get
  if m.core.erf.anyNaN then Tr.throw .modelState
  else do
    Tr.assign fun m => { m with idx := none }
    let l ← Tr.lift (← Tr.get).core.erfMags
    Tr.assign fun m => { m with t1 := nanLike l }
    let l ← Tr.lift (← Tr.get).core.erfMags
    Tr.assign fun m => { m with t2 := nanLike l }
    let l ← Tr.lift (← Tr.get).core.erfMags
    Tr.assign fun m => { m with rndt := nanLike l }

/-- the time index, `impulse_response_model.py:174-178` -/
def countT : Tr (IRM N α) Unit := do
  let m ← Tr.get
  if m.idx = none then Tr.assign fun m => { m with idx := some 0 }
  else do
    let i := (← Tr.get).idx
    Tr.assign fun m => { m with idx := i.map (· + 1) }

/-- the first step, `impulse_response_model.py:180-183` -/
def firstT : Tr (IRM N α) Unit := do
  let m ← Tr.get
  let i ← Tr.lift (asIndex m.idx)
  let _ ← Tr.lift (setAt m.t1 i (Arith.dec 0 1))
  Tr.assign fun m => { m with t1 := m.t1.set i (Arith.dec 0 1) }
  let m ← Tr.get
  let i ← Tr.lift (asIndex m.idx)
  let _ ← Tr.lift (setAt m.t2 i (Arith.dec 0 1))
  Tr.assign fun m => { m with t2 := m.t2.set i (Arith.dec 0 1) }
  let m ← Tr.get
  let i ← Tr.lift (asIndex m.idx)
  let _ ← Tr.lift (setAt m.rndt i (Arith.dec 0 1))
  Tr.assign fun m => { m with rndt := m.rndt.set i (Arith.dec 0 1) }

/-- every other step, `impulse_response_model.py:185-207` -/
def nextT : Tr (IRM N α) Unit := do
  -- lines 186-192
  let m ← Tr.get
  let i ← Tr.lift (asIndex m.idx)
  let t1Prev ← Tr.lift (getPrev m.t1 i)
  let erf ← Tr.lift (m.core.erfPrev i)
  let x ← Tr.lift (calcNextTemp m.core.deltaTMag t1Prev m.q1Mag m.d1Mag erf)
  let _ ← Tr.lift (setAt m.t1 i x)
  Tr.assign fun m => { m with t1 := m.t1.set i x }
  -- lines 194-200
  let m ← Tr.get
  let i ← Tr.lift (asIndex m.idx)
  let t2Prev ← Tr.lift (getPrev m.t2 i)
  let erf ← Tr.lift (m.core.erfPrev i)
  let y ← Tr.lift (calcNextTemp m.core.deltaTMag t2Prev m.q2Mag m.d2Mag erf)
  let _ ← Tr.lift (setAt m.t2 i y)
  Tr.assign fun m => { m with t2 := m.t2.set i y }
  -- lines 202-207
  let m ← Tr.get
  let i ← Tr.lift (asIndex m.idx)
  let t1Prev ← Tr.lift (getPrev m.t1 i)
  let t2Prev ← Tr.lift (getPrev m.t2 i)
  let erf ← Tr.lift (m.core.erfPrev i)
  let z ← Tr.lift (m.calcNextRndt R t1Prev t2Prev erf m.efficacyMag)
  let _ ← Tr.lift (setAt m.rndt i z)
  Tr.assign fun m => { m with rndt := m.rndt.set i z }

/-- `_step`, `impulse_response_model.py:173-207` -/
def stepT : Tr (IRM N α) Unit := do
  countT
  let m ← Tr.get
  if m.idx = some 0 then firstT else nextT R

/-- `_run`, `impulse_response_model.py:169-171` -/
def runT : Tr (IRM N α) Unit := do
  let m ← Tr.get
  Tr.times (stepT R) m.core.erf.length
end IRM

variable {σ : Type} [DecidableEq α]

/-- What `run_scenarios` uses of the concrete class, `base.py:68-76` -/
structure TVariant (N α σ : Type) where
  name : String
  setDeltaT : Arg N α → Tr σ Unit
  setDrivers : DArg N α → Tr σ Unit
  reset : Tr σ Unit
  run : Tr σ Unit
  outputs : σ → List (String × String × List α)
  saveParas : σ → List (String × Qty N α)

/-- `TwoLayerModel`; `_name` at `two_layer_model.py:51` -/
def TLM.tvariant (R : Registry N α) : TVariant N α (TLM N α) where
  name := "two_layer"
  setDeltaT := TLM.setDeltaTT R
  setDrivers := TLM.setDriversT R
  reset := TLM.resetT
  run := TLM.runT
  outputs := TLM.outputs
  saveParas := TLM.saveParas

/-- `ImpulseResponseModel`; `_name` at `impulse_response_model.py:52` -/
def IRM.tvariant (R : Registry N α) : TVariant N α (IRM N α) where
  name := "two_timescale_impulse_response"
  setDeltaT := IRM.setDeltaTT R
  setDrivers := IRM.setDriversT R
  reset := IRM.resetT
  run := IRM.runT R
  outputs := IRM.outputs
  saveParas := IRM.saveParas

/-- the body of the loop, `base.py:229-252` -/
def runRowT (V : TVariant N α σ) (R : Registry N α) (i : Nat) (row : Row α) : Tr σ (List (Row α)) := do
  match row.info.get "unit" with
  | some (.str us) =>
    let noNaN := dropna row.vals
    match R.parse us with
    | none => Tr.throw .undefinedUnit
    | some u => do
      V.setDrivers (.qty ⟨1, noNaN⟩ u)
      V.reset
      V.run
      let m ← Tr.get
      let outs := (V.outputs m).map fun o => (⟨createInfo row.info o.2.1 o.1, scatter row.vals o.2.2⟩ : Row α)
      let rows := (⟨row.info, scatter row.vals noNaN⟩ : Row α) :: outs
      if noNaN.isEmpty then Tr.throw .noData
      else if !(decide (rows.map Row.info).Nodup) then Tr.throw .nonUniqueMeta
      else pure (rows.map fun r => { r with info := r.info.set "run_idx" (.int i) })
  | _ => Tr.throw .key

/-- the loop over the driver rows, `base.py:229-252` -/
def runRowsT (V : TVariant N α σ) (R : Registry N α) : Nat → List (Row α) → Tr σ (List (Row α))
  | _, [] => pure []
  | i, row :: rest => do
    let out ← runRowT V R i row
    let more ← runRowsT V R (i + 1) rest
    pure (out ++ more)

/-- `run_scenarios`, `base.py:175-268` -/
def runScenariosT (V : TVariant N α σ) (R : Registry N α) (driverVar : String) (scen : ScmRun α) : Tr σ (ScmRun α) := do
  let m ← Tr.get
  -- lines 208-211
  let paras := parasMeta R (V.saveParas m)
  -- lines 213-217
  let sel := scen.rows.filter (selects driverVar)
  if sel.isEmpty then Tr.throw (.value "No World data available for driver_var")
  else do
    -- lines 219-221
    let drivers : List (Row α) := sel.map fun r => { r with info := annotate V.name paras r.info }
    -- lines 223-224
    let ts ← Tr.lift (selectTimestep scen.times)
    V.setDeltaT (.qty (ts.qty R))
    -- line 228
    if !(decide (drivers.map Row.info).Nodup) then Tr.throw .nonUniqueMeta
    else do
      let out ← runRowsT V R 0 drivers
      pure (concatRuns scen.times drivers out)

end TwoLayer
