import Verif.Model.Base

/-!
# `two_layer_model.py`: class `TwoLayerModel`
-/

namespace TwoLayer
variable {N α : Type} [Fintype N] [DecidableEq N] [Arith α]

/-- The attributes of a `TwoLayerModel` object (`two_layer_model.py:66-78` and the setters `88-184`).
`tu`, `tl`, `rndt` are `_temp_upper_mag`, `_temp_lower_mag`, `_rndt_mag`; `idx` is `_timestep_idx`
(`none` = `np.nan`). -/
structure TLM (N α : Type) where
  du : Qty N α
  duMag : α
  hcuMag : α
  dl : Qty N α
  dlMag : α
  hclMag : α
  lambda0 : Qty N α
  lambda0Mag : α
  a : Qty N α
  aMag : α
  efficacy : Qty N α
  efficacyMag : α
  eta : Qty N α
  etaMag : α
  core : Core N α
  tu : List α
  tl : List α
  rndt : List α
  idx : Option Nat

namespace TLM
variable (R : Registry N α)

/-- property `heat_capacity_upper`, `two_layer_model.py:98-103`, as a function of `self.du` -/
def heatCapacityOf (d : Qty N α) : Qty N α := (d.mul R.densityWater).mul R.heatCapacityWater

/-- property `heat_capacity_upper`, `two_layer_model.py:97-103` -/
def heatCapacityUpper (m : TLM N α) : Qty N α := heatCapacityOf R m.du

/-- property `heat_capacity_lower`, `two_layer_model.py:122-128` -/
def heatCapacityLower (m : TLM N α) : Qty N α := heatCapacityOf R m.dl

/-- setter of `du`, `two_layer_model.py:88-95` -/
def setDu (v : Arg N α) : Py (TLM N α) Unit := do
  let q ← Py.lift (checkQty R v "du" R.m)
  Py.modify fun m => { m with du := q }
  Py.modify fun m => { m with duMag := q.magIn R R.m }
  let m ← Py.get
  let h ← Py.lift ((m.heatCapacityUpper R).toUnit R R.jm2c)
  Py.modify fun m => { m with hcuMag := h.mag }

/-- setter of `dl`, `two_layer_model.py:113-120` -/
def setDl (v : Arg N α) : Py (TLM N α) Unit := do
  let q ← Py.lift (checkQty R v "dl" R.m)
  Py.modify fun m => { m with dl := q }
  Py.modify fun m => { m with dlMag := q.magIn R R.m }
  let m ← Py.get
  let h ← Py.lift ((m.heatCapacityLower R).toUnit R R.jm2c)
  Py.modify fun m => { m with hclMag := h.mag }

/-- setter of `lambda0`, `two_layer_model.py:138-142` -/
def setLambda0 (v : Arg N α) : Py (TLM N α) Unit := do
  let q ← Py.lift (checkQty R v "lambda0" R.wm2c)
  Py.modify fun m => { m with lambda0 := q, lambda0Mag := q.magIn R R.wm2c }

/-- setter of `a`, `two_layer_model.py:152-156` -/
def setA (v : Arg N α) : Py (TLM N α) Unit := do
  let q ← Py.lift (checkQty R v "a" R.wm2cc)
  Py.modify fun m => { m with a := q, aMag := q.magIn R R.wm2cc }

/-- setter of `efficacy`, `two_layer_model.py:166-170` -/
def setEfficacy (v : Arg N α) : Py (TLM N α) Unit := do
  let q ← Py.lift (checkQty R v "efficacy" R.one)
  Py.modify fun m => { m with efficacy := q, efficacyMag := q.magIn R R.one }

/-- setter of `eta`, `two_layer_model.py:180-184` -/
def setEta (v : Arg N α) : Py (TLM N α) Unit := do
  let q ← Py.lift (checkQty R v "eta" R.wm2c)
  Py.modify fun m => { m with eta := q, etaMag := q.magIn R R.wm2c }

/-- inherited setter of `delta_t`, `base.py:94-98`, with `_delta_t_unit = "s"` (`two_layer_model.py:34`) -/
def setDeltaT (v : Arg N α) : Py (TLM N α) Unit :=
  Py.onCore TLM.core (fun m c => { m with core := c }) (Core.setDeltaT R R.s v)

/-- inherited setter of `erf`, `base.py:108-112` -/
def setErf (v : DArg N α) : Py (TLM N α) Unit :=
  Py.onCore TLM.core (fun m c => { m with core := c }) (Core.setErf R v)

/-- inherited `set_drivers`, `base.py:114-133` -/
def setDrivers (v : DArg N α) : Py (TLM N α) Unit :=
  Py.onCore TLM.core (fun m c => { m with core := c }) (Core.setDrivers R v)

/-- Arguments of the constructor (`two_layer_model.py:53-62`). -/
structure Args (N α : Type) where
  du : Arg N α
  dl : Arg N α
  lambda0 : Arg N α
  a : Arg N α
  efficacy : Arg N α
  eta : Arg N α
  deltaT : Arg N α

/-- `TwoLayerModel.__init__`, `two_layer_model.py:53-78`.  The setters run on the object under
construction; only their success or failure and the attributes they store are observable. -/
def init (x : Args N α) : Except Err (TLM N α) := do
  let du ← checkQty R x.du "du" R.m
  let hcu ← (heatCapacityOf R du).toUnit R R.jm2c
  let dl ← checkQty R x.dl "dl" R.m
  let hcl ← (heatCapacityOf R dl).toUnit R R.jm2c
  let lambda0 ← checkQty R x.lambda0 "lambda0" R.wm2c
  let a ← checkQty R x.a "a" R.wm2cc
  let efficacy ← checkQty R x.efficacy "efficacy" R.one
  let eta ← checkQty R x.eta "eta" R.wm2c
  let deltaT ← checkQty R x.deltaT "delta_t" R.s
  pure {
    du, duMag := du.magIn R R.m, hcuMag := hcu.mag
    dl, dlMag := dl.magIn R R.m, hclMag := hcl.mag
    lambda0, lambda0Mag := lambda0.magIn R R.wm2c
    a, aMag := a.magIn R R.wm2cc
    efficacy, efficacyMag := efficacy.magIn R R.one
    eta, etaMag := eta.magIn R R.wm2c
    core := { deltaT, deltaTMag := deltaT.magIn R R.s, erf := .unset, erfMag := none }
    tu := [Arith.nan], tl := [Arith.nan], rndt := [Arith.nan]
    idx := none }

/-- The default arguments, `two_layer_model.py:55-61`. -/
def defaultArgs : Args N α where
  du := .qty ⟨Arith.ofNat 50, R.m⟩
  dl := .qty ⟨Arith.ofNat 1200, R.m⟩
  lambda0 := .qty ⟨Arith.dec 374 2 / Arith.ofNat 3, R.wm2c⟩
  a := .qty ⟨Arith.dec 0 1, R.wm2cc⟩
  efficacy := .qty ⟨Arith.dec 10 1, R.one⟩
  eta := .qty ⟨Arith.dec 8 1, R.wm2c⟩
  deltaT := .qty ⟨(Qty.mk (Arith.ofNat 1) R.yr).magIn R R.s, R.s⟩

/-- `_calculate_next_temp_upper`, `two_layer_model.py:245-253` -/
def calcNextTempUpper (delta_t t_upper t_lower erf lambda0 a efficacy eta heat_capacity_upper : α) : α :=
  let lambda_now := lambda0 - a * t_upper
  let heat_exchange := efficacy * eta * (t_upper - t_lower)
  let dT_dt := (erf - lambda_now * t_upper - heat_exchange) / heat_capacity_upper
  t_upper + delta_t * dT_dt

/-- `_calculate_next_temp_lower`, `two_layer_model.py:255-262` -/
def calcNextTempLower (delta_t t_lower t_upper eta heat_capacity_lower : α) : α :=
  let heat_exchange := eta * (t_upper - t_lower)
  let dT_dt := heat_exchange / heat_capacity_lower
  t_lower + delta_t * dT_dt

/-- `_calculate_next_rndt`, `two_layer_model.py:264-277` -/
def calcNextRndt (delta_t t_lower_now t_lower_prev heat_capacity_lower t_upper_now t_upper_prev
    heat_capacity_upper : α) : α :=
  let uptake_lower := heat_capacity_lower * (t_lower_now - t_lower_prev) / delta_t
  let uptake_upper := heat_capacity_upper * (t_upper_now - t_upper_prev) / delta_t
  uptake_upper + uptake_lower

/-- `_reset`, `two_layer_model.py:186-196` -/
def reset : Py (TLM N α) Unit := do
  let m ← Py.get
  if m.core.erf.anyNaN then Py.throw .modelState
  else match m.core.erfMag with
    | none => do
      Py.modify fun m => { m with idx := none }
      Py.throw .attribute
    | some erfMag =>
      Py.modify fun m => { m with
        idx := none, tu := nanLike erfMag, tl := nanLike erfMag, rndt := nanLike erfMag }

/-- `_step`, `two_layer_model.py:202-243` -/
def step : Py (TLM N α) Unit := do
  -- lines 203-207
  let i := nextIdx (← Py.get).idx
  Py.modify fun m => { m with idx := some i }
  let m ← Py.get
  match i with
  | 0 => do                  -- lines 209-212
    let tu ← Py.lift (setAt m.tu 0 (Arith.dec 0 1))
    Py.modify fun m => { m with tu := tu }
    let tl ← Py.lift (setAt m.tl 0 (Arith.dec 0 1))
    Py.modify fun m => { m with tl := tl }
    let rndt ← Py.lift (setAt m.rndt 0 (Arith.dec 0 1))
    Py.modify fun m => { m with rndt := rndt }
  | j + 1 => do
    -- lines 215-225
    let tuPrev ← Py.lift (getAt m.tu j)
    let tlPrev ← Py.lift (getAt m.tl j)
    let erf ← Py.lift (m.core.erfAt j)
    let x := calcNextTempUpper m.core.deltaTMag tuPrev tlPrev erf m.lambda0Mag m.aMag m.efficacyMag
      m.etaMag m.hcuMag
    let tu ← Py.lift (setAt m.tu (j + 1) x)
    Py.modify fun m => { m with tu := tu }
    -- lines 227-233
    let m ← Py.get
    let tlPrev ← Py.lift (getAt m.tl j)
    let tuPrev ← Py.lift (getAt m.tu j)
    let y := calcNextTempLower m.core.deltaTMag tlPrev tuPrev m.etaMag m.hclMag
    let tl ← Py.lift (setAt m.tl (j + 1) y)
    Py.modify fun m => { m with tl := tl }
    -- lines 235-243
    let m ← Py.get
    let tlNow ← Py.lift (getAt m.tl (j + 1))
    let tlPrev ← Py.lift (getAt m.tl j)
    let tuNow ← Py.lift (getAt m.tu (j + 1))
    let tuPrev ← Py.lift (getAt m.tu j)
    let z := calcNextRndt m.core.deltaTMag tlNow tlPrev m.hclMag tuNow tuPrev m.hcuMag
    let rndt ← Py.lift (setAt m.rndt (j + 1) z)
    Py.modify fun m => { m with rndt := rndt }

/-- `_run`, `two_layer_model.py:198-200`: one `step` per element of `self.erf` -/
def run : Py (TLM N α) Unit := do
  let m ← Py.get
  Py.times step m.core.erf.length

/-- `_get_run_output_tss`, `two_layer_model.py:279-307`: (variable, unit, values) -/
def outputs (m : TLM N α) : List (String × String × List α) :=
  [("Surface Temperature|Upper", "delta_degC", m.tu),
   ("Surface Temperature|Lower", "delta_degC", m.tl),
   ("Heat Uptake", "W/m^2", m.rndt)]

/-- `_save_paras`, `two_layer_model.py:42-49`, with the current values -/
def saveParas (m : TLM N α) : List (String × Qty N α) :=
  [("du", m.du), ("dl", m.dl), ("lambda0", m.lambda0), ("a", m.a), ("efficacy", m.efficacy), ("eta", m.eta)]

/-- The dictionary returned by `get_impulse_response_parameters`, `two_layer_model.py:347-353` -/
structure IRParams (N α : Type) where
  d1 : Qty N α
  d2 : Qty N α
  q1 : Qty N α
  q2 : Qty N α
  efficacy : Qty N α

/-- `get_impulse_response_parameters`, `two_layer_model.py:309-355` -/
def getImpulseResponseParameters (m : TLM N α) : Except Err (IRParams N α) := do
  if !(Arith.eq m.a.mag (Arith.ofNat 0)) then
    .error (.value "Cannot calculate impulse response parameters with non-zero a")
  else
    let gh ← geoffroy R m.du m.dl m.lambda0 m.efficacy m.eta
    let dphi ← gh.phi2.sub R gh.phi1
    let qdenom := gh.C.mul dphi
    let q1 ← (gh.tau1.mul gh.phi2).div qdenom
    let q2 ← (gh.tau2.neg.mul gh.phi1).div qdenom
    pure { d1 := gh.tau1, d2 := gh.tau2, q1, q2, efficacy := m.efficacy }

end TLM
end TwoLayer
