import Verif.Model.ImpulseResponse
import Verif.Model.Time

/-!
# `run_scenarios` (`base.py:135-268`)

`ScmRun` (package scmdata) is outside `/repo`.  It is modelled as a table: a time axis, and rows made of
metadata and one value per time, NaN where missing.  What the model assumes of scmdata and pandas is stated
at each definition.
-/

namespace TwoLayer

/-- A metadata value: text, a parameter magnitude, or the run number. (`base.py:211-224, 252`) -/
inductive MVal (α : Type) where
  | str (s : String)
  | num (x : α)
  | int (n : Nat)
deriving DecidableEq

/-- The metadata of one series: column name → value, in column order. (`base.py:222-224, 238, 252`) -/
abbrev Meta (α : Type) := List (String × MVal α)

namespace Meta
variable {α : Type}
/-- read a column, `base.py:241` -/
def get (k : String) : Meta α → Option (MVal α)
  | [] => none
  | (k', v) :: l => if k' = k then some v else get k l
/-- `run[k] = v`: overwrite the column, or append it if it does not exist, `base.py:222, 224, 252` -/
def set (k : String) (v : MVal α) : Meta α → Meta α
  | [] => [(k, v)]
  | (k', v') :: l => if k' = k then (k, v) :: l else (k', v') :: set k v l
end Meta

/-- One series. (`base.py:231-232`) -/
structure Row (α : Type) where
  info : Meta α
  vals : List α
deriving DecidableEq

/-- An `scmdata.ScmRun`. -/
structure ScmRun (α : Type) where
  times : List Int
  rows : List (Row α)
deriving DecidableEq

/-- scmdata's `filter(variable=...)` matching: `*` matches any characters, everything else itself.
(Regular-expression characters scmdata does not escape are not modelled.) -/
def globMatch : List Char → List Char → Bool
  | [], s => s.isEmpty
  | '*' :: p, [] => globMatch p []
  | '*' :: p, c :: s => globMatch p (c :: s) || globMatch ('*' :: p) s
  | _ :: _, [] => false
  | q :: p, c :: s => q == c && globMatch p s
termination_by p s => (p.length + s.length)

variable {N α σ : Type} [Fintype N] [DecidableEq N] [Arith α] [DecidableEq α]

/-- `driver.filter(variable=driver_var, region="World")`, `base.py:213` -/
def selects (driverVar : String) (r : Row α) : Bool :=
  (match r.info.get "variable" with
    | some (.str v) => globMatch driverVar.toList v.toList
    | _ => false) &&
  r.info.get "region" == some (.str "World")

/-- What `run_scenarios` uses of the concrete class (`TwoLayerVariant`, `base.py:68-76`): its `_name`, the
`delta_t` setter, `set_drivers`, `reset`, `run`, `_get_run_output_tss`, and `_save_paras` with their values. -/
structure Variant (N α σ : Type) where
  name : String
  setDeltaT : Arg N α → Py σ Unit
  setDrivers : DArg N α → Py σ Unit
  reset : Py σ Unit
  run : Py σ Unit
  outputs : σ → List (String × String × List α)
  saveParas : σ → List (String × Qty N α)

/-- `TwoLayerModel` as a variant; `_name` at `two_layer_model.py:51` -/
def TLM.variant (R : Registry N α) : Variant N α (TLM N α) where
  name := "two_layer"
  setDeltaT := TLM.setDeltaT R
  setDrivers := TLM.setDrivers R
  reset := TLM.reset
  run := TLM.run
  outputs := TLM.outputs
  saveParas := TLM.saveParas

/-- `ImpulseResponseModel` as a variant; `_name` at `impulse_response_model.py:52` -/
def IRM.variant (R : Registry N α) : Variant N α (IRM N α) where
  name := "two_timescale_impulse_response"
  setDeltaT := IRM.setDeltaT R
  setDrivers := IRM.setDrivers R
  reset := IRM.reset
  run := IRM.run R
  outputs := IRM.outputs
  saveParas := IRM.saveParas

/-- `save_paras_meta`, `base.py:208-211`: column `"{name} ({units})"` with the magnitude -/
def parasMeta (R : Registry N α) (ps : List (String × Qty N α)) : Meta α :=
  ps.map fun p => (p.1 ++ " (" ++ R.str p.2.unit ++ ")", .num p.2.mag)

/-- `driver["climate_model"] = ...` and the parameter columns, `base.py:219-221` -/
def annotate (name : String) (paras : Meta α) (m : Meta α) : Meta α :=
  paras.foldl (fun m kv => m.set kv.1 kv.2) (m.set "climate_model" (.str name))

/-- `row.dropna()`, `base.py:236` -/
def dropna (l : List α) : List α := l.filter fun x => !(Arith.isNaN x)

/-- Put the values of a series without gaps back on the driver's axis, NaN where the driver is missing: the
columns of `row_no_nan` are the driver's non-missing times, and the final `pd.concat` (`base.py:258-262`)
fills the other times with NaN. -/
def scatter : List α → List α → List α
  | [], _ => []
  | d :: ds, vs =>
    if Arith.isNaN d then Arith.nan :: scatter ds vs
    else match vs with
      | [] => Arith.nan :: scatter ds []
      | v :: vs => v :: scatter ds vs

/-- `_create_ts`, `base.py:144-151`: the driver's metadata with unit and variable replaced -/
def createInfo (base : Meta α) (unit variable_ : String) : Meta α :=
  (base.set "unit" (.str unit)).set "variable" (.str variable_)

/-- The body of the loop, `base.py:229-252`, for the `i`-th driver row. -/
def runRow (V : Variant N α σ) (R : Registry N α) (i : Nat) (row : Row α) : Py σ (List (Row α)) := do
  match row.info.get "unit" with
  | some (.str us) =>
    let noNaN := dropna row.vals
    match R.parse us with
    | none => Py.throw .undefinedUnit
    | some u => do
      V.setDrivers (.qty ⟨1, noNaN⟩ u)
      V.reset
      V.run
      let m ← Py.get
      let outs := (V.outputs m).map fun o => (⟨createInfo row.info o.2.1 o.1, scatter row.vals o.2.2⟩ : Row α)
      let rows := (⟨row.info, scatter row.vals noNaN⟩ : Row α) :: outs
      -- `ScmRun(pd.concat(out_run_tss))`, line 249: scmdata refuses a frame without time columns and
      -- duplicate metadata
      if noNaN.isEmpty then Py.throw .noData
      else if !(decide (rows.map Row.info).Nodup) then Py.throw .nonUniqueMeta
      -- `out_run["run_idx"] = i`, line 250
      else pure (rows.map fun r => { r with info := r.info.set "run_idx" (.int i) })
  | _ => Py.throw .key

/-- the loop over the driver rows, `base.py:229-252` -/
def runRows (V : Variant N α σ) (R : Registry N α) : Nat → List (Row α) → Py σ (List (Row α))
  | _, [] => pure []
  | i, row :: rest => do
    let out ← runRow V R i row
    let more ← runRows V R (i + 1) rest
    pure (out ++ more)

/-- positions at which some row has a value, used for `base.py:251`: `ScmRun` drops columns without values -/
def usedAt (rows : List (Row α)) (i : Nat) : Bool :=
  rows.any fun r => match r.vals[i]? with
    | some x => !(Arith.isNaN x)
    | none => false

/-- keep the positions selected by `p`, used for `base.py:251` -/
def keepAt {β : Type} (p : Nat → Bool) (l : List β) : List β :=
  (l.zipIdx.filter fun x => p x.2).map Prod.fst

/-- `pd.concat` of the per-scenario frames, `base.py:254-266`: the time axis is the union of the axes of the
frames, i.e. the times at which some driver row has a value. -/
def concatRuns (times : List Int) (drivers out : List (Row α)) : ScmRun α where
  times := keepAt (usedAt drivers) times
  rows := out.map fun r => { r with vals := keepAt (usedAt drivers) r.vals }

/-- `run_scenarios`, `base.py:175-268`.  The input is already an `ScmRun`
(`_ensure_scenarios_are_scmrun`, `base.py:135-142`, copies or converts it). -/
def runScenarios (V : Variant N α σ) (R : Registry N α) (driverVar : String) (scen : ScmRun α) :
    Py σ (ScmRun α) := do
  let m ← Py.get
  -- lines 208-211
  let paras := parasMeta R (V.saveParas m)
  -- lines 213-217
  let sel := scen.rows.filter (selects driverVar)
  if sel.isEmpty then Py.throw (.value "No World data available for driver_var")
  else do
    -- lines 219-221
    let drivers : List (Row α) := sel.map fun r => { r with info := annotate V.name paras r.info }
    -- lines 223-224
    let ts ← Py.lift (selectTimestep scen.times)
    V.setDeltaT (.qty (ts.qty R))
    -- line 228: `timeseries()` refuses duplicate metadata
    if !(decide (drivers.map Row.info).Nodup) then Py.throw .nonUniqueMeta
    else do
      let out ← runRows V R 0 drivers
      pure (concatRuns scen.times drivers out)

/-- the default of `driver_var`, `base.py:176` -/
def defaultDriverVar : String := "Effective Radiative Forcing"

end TwoLayer
