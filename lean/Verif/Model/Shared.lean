import Verif.Model.Scenarios

/-!
# Quantities as shared, mutable objects

The setters store the caller's `pint.Quantity` itself (`self._du = val`, `two_layer_model.py:93` and the other setters
cited in `Model/TwoLayer.lean`, `Model/ImpulseResponse.lean`, `Model/Base.lean`), and the property getters hand it out
again (`return self._du`).  The default values of the constructors' parameters (`two_layer_model.py:55-61`,
`impulse_response_model.py:56-61`) are Quantity objects created once, when the class is defined, and shared by all
objects constructed without that argument.  The rest of the model treats Quantities as values.  Here they are cells of
a heap, and the one way of changing a scalar Quantity in place, pint's `q.ito(unit)`, is one of the things a program
may do.  The magnitudes cached by the setters are Python numbers and do not change with the cell.
-/

namespace TwoLayer
variable {N α : Type} [Fintype N] [DecidableEq N] [Arith α] [DecidableEq α]

/-- the methods of an object that take no parameter Quantity: the `erf` setter, `set_drivers`, `reset`, `step`, `run`
(`base.py:108-133`, `base.py:40-65`) -/
inductive Method (N α : Type) where
  | setErf (v : DArg N α) | setDrivers (v : DArg N α) | reset | step | run

/-- What sharing has to know about a class: `K` names its parameters. (`two_layer_model.py:74-184`, `impulse_response_model.py:60-155`) -/
structure Sharing (N α K σ : Type) where
  /-- the getters -/
  param : σ → K → Qty N α
  /-- the same object, its parameter attributes referring to Quantities with these values -/
  withParams : σ → (K → Qty N α) → σ
  /-- which parameter is `delta_t` -/
  dt : K
  /-- the constructor -/
  init : (K → Qty N α) → Except Err σ
  /-- the setters -/
  assign : K → Qty N α → Py σ Unit
  method : Method N α → Py σ Unit
  runScenarios : String → ScmRun α → Py σ Unit

/-- the parameters of `TwoLayerModel`, `two_layer_model.py:53-62` -/
inductive TPar where
  | du | dl | lambda0 | a | efficacy | eta | deltaT
deriving DecidableEq

/-- the list of parameters is complete, `two_layer_model.py:53-62` -/
instance : Fintype TPar := ⟨{.du, .dl, .lambda0, .a, .efficacy, .eta, .deltaT}, fun x => by cases x <;> simp⟩

/-- the parameters of `ImpulseResponseModel`, `impulse_response_model.py:54-62` -/
inductive IPar where
  | q1 | q2 | d1 | d2 | efficacy | deltaT
deriving DecidableEq

/-- the list of parameters is complete, `impulse_response_model.py:54-62` -/
instance : Fintype IPar := ⟨{.q1, .q2, .d1, .d2, .efficacy, .deltaT}, fun x => by cases x <;> simp⟩

/-- `TwoLayerModel` (`two_layer_model.py:53-200`) -/
def TLM.sharing (R : Registry N α) : Sharing N α TPar (TLM N α) where
  param m
    | .du => m.du | .dl => m.dl | .lambda0 => m.lambda0 | .a => m.a | .efficacy => m.efficacy | .eta => m.eta
    | .deltaT => m.core.deltaT
  withParams m p := { m with
    du := p .du, dl := p .dl, lambda0 := p .lambda0, a := p .a, efficacy := p .efficacy, eta := p .eta,
    core := { m.core with deltaT := p .deltaT } }
  dt := .deltaT
  init p := TLM.init R ⟨.qty (p .du), .qty (p .dl), .qty (p .lambda0), .qty (p .a), .qty (p .efficacy), .qty (p .eta),
    .qty (p .deltaT)⟩
  assign
    | .du, q => TLM.setDu R (.qty q) | .dl, q => TLM.setDl R (.qty q) | .lambda0, q => TLM.setLambda0 R (.qty q)
    | .a, q => TLM.setA R (.qty q) | .efficacy, q => TLM.setEfficacy R (.qty q) | .eta, q => TLM.setEta R (.qty q)
    | .deltaT, q => TLM.setDeltaT R (.qty q)
  method
    | .setErf v => TLM.setErf R v | .setDrivers v => TLM.setDrivers R v | .reset => TLM.reset | .step => TLM.step
    | .run => TLM.run
  runScenarios dv scen := do let _ ← TwoLayer.runScenarios (TLM.variant R) R dv scen; pure ()

/-- `ImpulseResponseModel` (`impulse_response_model.py:54-171`) -/
def IRM.sharing (R : Registry N α) : Sharing N α IPar (IRM N α) where
  param m
    | .q1 => m.q1 | .q2 => m.q2 | .d1 => m.d1 | .d2 => m.d2 | .efficacy => m.efficacy | .deltaT => m.core.deltaT
  withParams m p := { m with
    q1 := p .q1, q2 := p .q2, d1 := p .d1, d2 := p .d2, efficacy := p .efficacy,
    core := { m.core with deltaT := p .deltaT } }
  dt := .deltaT
  init p := IRM.init R ⟨.qty (p .q1), .qty (p .q2), .qty (p .d1), .qty (p .d2), .qty (p .efficacy), .qty (p .deltaT)⟩
  assign
    | .q1, q => IRM.setQ1 R (.qty q) | .q2, q => IRM.setQ2 R (.qty q) | .d1, q => IRM.setD1 R (.qty q)
    | .d2, q => IRM.setD2 R (.qty q) | .efficacy, q => IRM.setEfficacy R (.qty q)
    | .deltaT, q => IRM.setDeltaT R (.qty q)
  method
    | .setErf v => IRM.setErf R v | .setDrivers v => IRM.setDrivers R v | .reset => IRM.reset | .step => IRM.step R
    | .run => IRM.run R
  runScenarios dv scen := do let _ ← TwoLayer.runScenarios (IRM.variant R) R dv scen; pure ()

/-- An object on the heap: which cell each parameter attribute refers to, and its other attributes.  (The parameter
fields of `state` are what they were when last written; what counts is the cell, see `read`.)  Attributes `_du`, `_dl`, … of `two_layer_model.py`, `_q1`, … of `impulse_response_model.py` -/
structure Obj (K σ : Type) where
  refs : K → Nat
  state : σ

/-- The object as its getters and methods see it: parameters are read from their cells. (getters, e.g. `two_layer_model.py:178`) -/
def Sharing.read {K σ : Type} (C : Sharing N α K σ) (heap : List (Qty N α)) (o : Obj K σ) : σ :=
  C.withParams o.state fun k => (heap[o.refs k]?).getD (C.param o.state k)

/-- what a program does with objects of one class; `i` numbers the objects, `r` the Quantities (the public API: `base.py:20-133` and the setters) -/
inductive Action (N α K : Type) where
  /-- call the constructor -/
  | create (ρ : K → Nat)
  /-- `obj.k = q` -/
  | assign (i : Nat) (k : K) (r : Nat)
  /-- call a method -/
  | call (i : Nat) (x : Method N α)
  | runScenarios (i : Nat) (driverVar : String) (scen : ScmRun α)

/-- Whether `run_scenarios` gets as far as `self.delta_t = ...`, `base.py:213-224` -/
def setsStep (driverVar : String) (scen : ScmRun α) : Bool :=
  !(scen.rows.filter (selects driverVar)).isEmpty && (match selectTimestep scen.times with
    | .ok _ => true
    | .error _ => false)

/-- The effect of an action on heap and objects; exceptions are caught.  An action on an object or Quantity that does
not exist does nothing.  A setter that raises leaves the attribute as it was (`base.py:29-37` runs first);
`run_scenarios` assigns a newly created time step (`base.py:153-173`). -/
def Sharing.act {K σ : Type} [Fintype K] [DecidableEq K] (C : Sharing N α K σ) (heap : List (Qty N α)) (objs : List (Obj K σ)) :
    Action N α K → List (Qty N α) × List (Obj K σ)
  | .create ρ =>
    if ∀ k, ρ k < heap.length then
      match C.init fun k => (heap[ρ k]?).getD ⟨Arith.nan, 0⟩ with
      | .ok m => (heap, objs ++ [⟨ρ, m⟩])
      | .error _ => (heap, objs)
    else (heap, objs)
  | .assign i k r =>
    match objs[i]?, heap[r]? with
    | some o, some q =>
      match C.assign k q (C.read heap o) with
      | (m, .ok _) => (heap, objs.set i ⟨Function.update o.refs k r, m⟩)
      | (m, .error _) => (heap, objs.set i ⟨o.refs, m⟩)
    | _, _ => (heap, objs)
  | .call i x =>
    match objs[i]? with
    | some o => (heap, objs.set i ⟨o.refs, (C.method x (C.read heap o)).1⟩)
    | none => (heap, objs)
  | .runScenarios i dv scen =>
    match objs[i]? with
    | some o =>
      let m := (C.runScenarios dv scen (C.read heap o)).1
      if setsStep dv scen then
        (heap ++ [C.param m C.dt], objs.set i ⟨Function.update o.refs C.dt heap.length, m⟩)
      else (heap, objs.set i ⟨o.refs, m⟩)
    | none => (heap, objs)

/-- a program's Quantities and objects; no code: the state of a calling program -/
structure World (N α : Type) where
  heap : List (Qty N α)
  tl : List (Obj TPar (TLM N α))
  ir : List (Obj IPar (IRM N α))

/-- what a program does; no code: a calling program -/
inductive Event (N α : Type) where
  /-- create a Quantity -/
  | quantity (q : Qty N α)
  /-- `q.ito(u)` on an existing Quantity, however the program got hold of it (for example as `obj.du`) -/
  | ito (r : Nat) (u : Units N)
  | tl (a : Action N α TPar)
  | ir (a : Action N α IPar)

/-- `q.ito(u)` in place on cell `r`; nothing changes if pint refuses (`DimensionalityError`). -/
def itoHeap (R : Registry N α) (heap : List (Qty N α)) (r : Nat) (u : Units N) : List (Qty N α) :=
  match heap[r]? with
  | none => heap
  | some q =>
    match q.toUnit R u with
    | .ok q' => heap.set r q'
    | .error _ => heap

/-- one event, exceptions caught; no code: a calling program -/
def World.exec (R : Registry N α) (w : World N α) : Event N α → World N α
  | .quantity q => { w with heap := w.heap ++ [q] }
  | .ito r u => { w with heap := itoHeap R w.heap r u }
  | .tl a =>
    let x := (TLM.sharing R).act w.heap w.tl a
    { w with heap := x.1, tl := x.2 }
  | .ir a =>
    let x := (IRM.sharing R).act w.heap w.ir a
    { w with heap := x.1, ir := x.2 }

/-- a program; no code: a calling program -/
def World.execs (R : Registry N α) (w : World N α) (p : List (Event N α)) : World N α := p.foldl (World.exec R) w

/-- which of the Quantities created with the class is the default of which parameter: default arguments are evaluated once, `two_layer_model.py:53-62` -/
def TPar.default : TPar → Nat
  | .du => 0 | .dl => 1 | .lambda0 => 2 | .a => 3 | .efficacy => 4 | .eta => 5 | .deltaT => 6

/-- which of the Quantities created with the class is the default of which parameter: default arguments are evaluated once, `impulse_response_model.py:54-62` -/
def IPar.default : IPar → Nat
  | .q1 => 7 | .q2 => 8 | .d1 => 9 | .d2 => 10 | .efficacy => 11 | .deltaT => 12

/-- After `import`: no objects, and the Quantities created as default arguments (`two_layer_model.py:55-61`,
`impulse_response_model.py:56-61`). -/
def World.imported (R : Registry N α) : World N α where
  heap := [⟨Arith.ofNat 50, R.m⟩, ⟨Arith.ofNat 1200, R.m⟩, ⟨Arith.dec 374 2 / Arith.ofNat 3, R.wm2c⟩,
    ⟨Arith.dec 0 1, R.wm2cc⟩, ⟨Arith.dec 10 1, R.one⟩, ⟨Arith.dec 8 1, R.wm2c⟩,
    ⟨(Qty.mk (Arith.ofNat 1) R.yr).magIn R R.s, R.s⟩,
    ⟨Arith.dec 3 1, R.cwm2⟩, ⟨Arith.dec 4 1, R.cwm2⟩, ⟨Arith.dec 90 1, R.yr⟩, ⟨Arith.dec 4000 1, R.yr⟩,
    ⟨Arith.dec 10 1, R.one⟩, ⟨Arith.ofNat 1 / Arith.ofNat 12, R.yr⟩]
  tl := []
  ir := []

/-- the `i`-th two-layer object as the program sees it; no code: a calling program -/
def World.twoLayer (R : Registry N α) (w : World N α) (i : Nat) : Option (TLM N α) :=
  w.tl[i]?.map ((TLM.sharing R).read w.heap)

/-- the `i`-th impulse response object as the program sees it; no code: a calling program -/
def World.impulseResponse (R : Registry N α) (w : World N α) (i : Nat) : Option (IRM N α) :=
  w.ir[i]?.map ((IRM.sharing R).read w.heap)

end TwoLayer
