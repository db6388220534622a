import Verif.Spec.Api

/-!
# Copies of a model object

`_step` writes into the output arrays in place (`two_layer_model.py:210-243`, `impulse_response_model.py:181-207`), `_reset`
replaces them (`two_layer_model.py:194-196`, `impulse_response_model.py:165-167`).  `copy.copy(model)` makes an object whose
attributes refer to the same arrays; `copy.deepcopy(model)` copies the arrays too.  The rest of the model treats arrays as values;
here the output arrays are cells of a heap.

Simplification: the three output arrays of an object are created, replaced and copied together, so one cell holds the three.  The
other attributes are values: nothing in `/repo` changes a Quantity or the driver array in place (for callers that do, see
`Model/Alias`, `Model/Shared`).
-/

namespace TwoLayer
variable {N α σ : Type} [Fintype N] [DecidableEq N] [Arith α] [DecidableEq α]

/-- the three output arrays, `two_layer_model.py:75-77`, `impulse_response_model.py:82-84` -/
structure Outs (α : Type) where
  a : List α
  b : List α
  rndt : List α

/-- What copies have to know about a class, `base.py:20-268`: its constructor, its calls, its output arrays, and which calls give it
new ones. -/
structure Copying (α Args Op σ : Type) where
  init : Args → Except Err σ
  call : Op → Py σ Unit
  outs : σ → Outs α
  withOuts : σ → Outs α → σ
  rebinds : Op → σ → Prop
  [dec : ∀ op m, Decidable (rebinds op m)]

/-- `run_scenarios` up to and including its first `reset`, `base.py:208-241`; what is left out changes nothing in the object -/
def runScenariosHead (V : Variant N α σ) (R : Registry N α) (driverVar : String) (scen : ScmRun α) : Py σ Unit := do
  let m ← Py.get
  let paras := parasMeta R (V.saveParas m)
  let sel := scen.rows.filter (selects driverVar)
  if sel.isEmpty then Py.throw (.value "No World data available for driver_var")
  else do
    let drivers : List (Row α) := sel.map fun r => { r with info := annotate V.name paras r.info }
    let ts ← Py.lift (selectTimestep scen.times)
    V.setDeltaT (.qty (ts.qty R))
    if !(decide (drivers.map Row.info).Nodup) then Py.throw .nonUniqueMeta
    else match drivers with
      | [] => Py.throw (.value "No World data available for driver_var")
      | row :: _ =>
        match row.info.get "unit" with
        | some (.str us) =>
          match R.parse us with
          | none => Py.throw .undefinedUnit
          | some u => do
            V.setDrivers (.qty ⟨1, dropna row.vals⟩ u)
            V.reset
        | _ => Py.throw .key

/-- whether a call went through -/
def Ok {β : Type} (r : Except Err β) : Prop :=
  match r with
  | .ok _ => True
  | .error _ => False

/-- decided by looking at the result -/
instance {β : Type} (r : Except Err β) : Decidable (Ok r) :=
  match r with
  | .ok _ => isTrue trivial
  | .error _ => isFalse fun h => h

/-- `TwoLayerModel`: `reset` (`two_layer_model.py:194-196`) and `run_scenarios` (`base.py:241`) give it new arrays -/
def TLM.copying (R : Registry N α) : Copying α (TLM.Args N α) (TLM.Op N α) (TLM N α) where
  init := TLM.init R
  call := TLM.call R
  outs m := ⟨m.tu, m.tl, m.rndt⟩
  withOuts m t := { m with tu := t.a, tl := t.b, rndt := t.rndt }
  rebinds op m := match op with
    | .reset => Ok (TLM.reset m).2
    | .runScenarios dv scen => Ok (runScenariosHead (TLM.variant R) R dv scen m).2
    | _ => False
  dec op m := by cases op <;> simp only <;> infer_instance

/-- `ImpulseResponseModel`: `reset` (`impulse_response_model.py:165-167`) and `run_scenarios` (`base.py:241`) give it new arrays -/
def IRM.copying (R : Registry N α) : Copying α (IRM.Args N α) (IRM.Op N α) (IRM N α) where
  init := IRM.init R
  call := IRM.call R
  outs m := ⟨m.t1, m.t2, m.rndt⟩
  withOuts m t := { m with t1 := t.a, t2 := t.b, rndt := t.rndt }
  rebinds op m := match op with
    | .reset => Ok (IRM.reset m).2
    | .runScenarios dv scen => Ok (runScenariosHead (IRM.variant R) R dv scen m).2
    | _ => False
  dec op m := by cases op <;> simp only <;> infer_instance

/-- An object on the heap: the cell of its output arrays (`two_layer_model.py:75-77`, `impulse_response_model.py:82-84`) and its other
attributes.  (The output fields of `state` are what they were when last written by it; what counts is the cell.) -/
structure CObj (σ : Type) where
  ref : Nat
  state : σ

/-- the arrays and the objects of a program; no code: the state of a calling program -/
structure CWorld (α σ : Type) where
  cells : List (Outs α)
  objs : List (CObj σ)

/-- what a program does; no code: a calling program -/
inductive CEvent (Args Op : Type) where
  | create (x : Args)
  /-- `copy.copy` of the `i`-th object -/
  | copy (i : Nat)
  /-- `copy.deepcopy` of the `i`-th object -/
  | deepcopy (i : Nat)
  | call (i : Nat) (op : Op)

namespace Copying
variable {Args Op : Type} (C : Copying α Args Op σ)

/-- the object as its methods see it, `two_layer_model.py:202-243`, `impulse_response_model.py:173-207` -/
def read (cells : List (Outs α)) (o : CObj σ) : σ := C.withOuts o.state ((cells[o.ref]?).getD (C.outs o.state))

/-- One event, exceptions caught; an event on an object that does not exist does nothing.  A call writes its outputs into new arrays
(`two_layer_model.py:194-196`, `impulse_response_model.py:165-167`) or into those it has (`two_layer_model.py:210-243`,
`impulse_response_model.py:181-207`). -/
def exec (w : CWorld α σ) : CEvent Args Op → CWorld α σ
  | .create x =>
    match C.init x with
    | .ok m => ⟨w.cells ++ [C.outs m], w.objs ++ [⟨w.cells.length, m⟩]⟩
    | .error _ => w
  | .copy i =>
    match w.objs[i]? with
    | some o => ⟨w.cells, w.objs ++ [o]⟩
    | none => w
  | .deepcopy i =>
    match w.objs[i]? with
    | some o => ⟨w.cells ++ [C.outs (C.read w.cells o)], w.objs ++ [⟨w.cells.length, C.read w.cells o⟩]⟩
    | none => w
  | .call i op =>
    match w.objs[i]? with
    | some o =>
      let m := C.read w.cells o
      let m' := (C.call op m).1
      letI := C.dec op m
      if C.rebinds op m then ⟨w.cells ++ [C.outs m'], w.objs.set i ⟨w.cells.length, m'⟩⟩
      else ⟨w.cells.set o.ref (C.outs m'), w.objs.set i ⟨o.ref, m'⟩⟩
    | none => w

/-- a program, from the import of the package on; no code: a calling program -/
def execs (p : List (CEvent Args Op)) : CWorld α σ := p.foldl C.exec ⟨[], []⟩

/-- the `i`-th object of a program as the program sees it; no code: a calling program -/
def obj (p : List (CEvent Args Op)) (i : Nat) : Option σ := (C.execs p).objs[i]?.map (C.read (C.execs p).cells)
end Copying

end TwoLayer
