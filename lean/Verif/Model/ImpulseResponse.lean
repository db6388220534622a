import Verif.Model.TwoLayer

/-!
# `impulse_response_model.py`: class `ImpulseResponseModel`
-/

namespace TwoLayer
variable {N α : Type} [Fintype N] [DecidableEq N] [Arith α]

/-- The attributes of an `ImpulseResponseModel` object (`impulse_response_model.py:71-85`, setters `95-155`).
`t1`, `t2`, `rndt` are `_temp1_mag`, `_temp2_mag`, `_rndt_mag`; `idx` is `_timestep_idx` (`none` = NaN). -/
structure IRM (N α : Type) where
  q1 : Qty N α
  q1Mag : α
  q2 : Qty N α
  q2Mag : α
  d1 : Qty N α
  d1Mag : α
  d2 : Qty N α
  d2Mag : α
  efficacy : Qty N α
  efficacyMag : α
  core : Core N α
  t1 : List α
  t2 : List α
  rndt : List α
  idx : Option Nat

namespace IRM
variable (R : Registry N α)

/-- setter of `d1`, `impulse_response_model.py:95-99` -/
def setD1 (v : Arg N α) : Py (IRM N α) Unit := do
  let q ← Py.lift (checkQty R v "d1" R.yr)
  Py.modify fun m => { m with d1 := q, d1Mag := q.magIn R R.yr }

/-- setter of `d2`, `impulse_response_model.py:109-113` -/
def setD2 (v : Arg N α) : Py (IRM N α) Unit := do
  let q ← Py.lift (checkQty R v "d2" R.yr)
  Py.modify fun m => { m with d2 := q, d2Mag := q.magIn R R.yr }

/-- setter of `q1`, `impulse_response_model.py:123-127` -/
def setQ1 (v : Arg N α) : Py (IRM N α) Unit := do
  let q ← Py.lift (checkQty R v "q1" R.cwm2)
  Py.modify fun m => { m with q1 := q, q1Mag := q.magIn R R.cwm2 }

/-- setter of `q2`, `impulse_response_model.py:137-141` -/
def setQ2 (v : Arg N α) : Py (IRM N α) Unit := do
  let q ← Py.lift (checkQty R v "q2" R.cwm2)
  Py.modify fun m => { m with q2 := q, q2Mag := q.magIn R R.cwm2 }

/-- setter of `efficacy`, `impulse_response_model.py:151-155` -/
def setEfficacy (v : Arg N α) : Py (IRM N α) Unit := do
  let q ← Py.lift (checkQty R v "efficacy" R.one)
  Py.modify fun m => { m with efficacy := q, efficacyMag := q.magIn R R.one }

/-- inherited setter of `delta_t`, `base.py:94-98`, with `_delta_t_unit = "yr"` (`impulse_response_model.py:36`) -/
def setDeltaT (v : Arg N α) : Py (IRM N α) Unit :=
  Py.onCore IRM.core (fun m c => { m with core := c }) (Core.setDeltaT R R.yr v)

/-- inherited setter of `erf`, `base.py:108-112` -/
def setErf (v : DArg N α) : Py (IRM N α) Unit :=
  Py.onCore IRM.core (fun m c => { m with core := c }) (Core.setErf R v)

/-- inherited `set_drivers`, `base.py:114-133` -/
def setDrivers (v : DArg N α) : Py (IRM N α) Unit :=
  Py.onCore IRM.core (fun m c => { m with core := c }) (Core.setDrivers R v)

/-- Arguments of the constructor (`impulse_response_model.py:54-62`). -/
structure Args (N α : Type) where
  q1 : Arg N α
  q2 : Arg N α
  d1 : Arg N α
  d2 : Arg N α
  efficacy : Arg N α
  deltaT : Arg N α

/-- `ImpulseResponseModel.__init__`, `impulse_response_model.py:54-85` -/
def init (x : Args N α) : Except Err (IRM N α) := do
  let q1 ← checkQty R x.q1 "q1" R.cwm2
  let q2 ← checkQty R x.q2 "q2" R.cwm2
  let d1 ← checkQty R x.d1 "d1" R.yr
  let d2 ← checkQty R x.d2 "d2" R.yr
  let efficacy ← checkQty R x.efficacy "efficacy" R.one
  let deltaT ← checkQty R x.deltaT "delta_t" R.yr
  let bad ← d1.ge R d2
  if bad then .error (.value "The short-timescale must be d1")
  else pure {
    q1, q1Mag := q1.magIn R R.cwm2
    q2, q2Mag := q2.magIn R R.cwm2
    d1, d1Mag := d1.magIn R R.yr
    d2, d2Mag := d2.magIn R R.yr
    efficacy, efficacyMag := efficacy.magIn R R.one
    core := { deltaT, deltaTMag := deltaT.magIn R R.yr, erf := .unset, erfMag := none }
    t1 := [Arith.nan], t2 := [Arith.nan], rndt := [Arith.nan]
    idx := none }

/-- The default arguments, `impulse_response_model.py:56-61`. -/
def defaultArgs : Args N α where
  q1 := .qty ⟨Arith.dec 3 1, R.cwm2⟩
  q2 := .qty ⟨Arith.dec 4 1, R.cwm2⟩
  d1 := .qty ⟨Arith.dec 90 1, R.yr⟩
  d2 := .qty ⟨Arith.dec 4000 1, R.yr⟩
  efficacy := .qty ⟨Arith.dec 10 1, R.one⟩
  deltaT := .qty ⟨Arith.ofNat 1 / Arith.ofNat 12, R.yr⟩

/-- `_calculate_next_temp`, `impulse_response_model.py:209-214` -/
def calcNextTemp (delta_t t q d erf : α) : Except Err α := do
  let x ← pyDiv (-delta_t) d
  let decay_factor := Arith.exp x
  let y ← pyDiv (-delta_t) d
  let rise := erf * q * (Arith.ofNat 1 - Arith.exp y)
  pure (t * decay_factor + rise)

/-- The dictionary returned by `get_two_layer_parameters`, `impulse_response_model.py:313-319` -/
structure TLParams (N α : Type) where
  lambda0 : Qty N α
  du : Qty N α
  dl : Qty N α
  eta : Qty N α
  efficacy : Qty N α

/-- `get_two_layer_parameters`, `impulse_response_model.py:284-321` -/
def getTwoLayerParameters (m : IRM N α) : Except Err (TLParams N α) := do
  let qsum ← m.q1.add R m.q2
  let lambda0 ← Qty.ndiv (Arith.ofNat 1) qsum
  let cden ← (m.q1.mul m.d2).add R (m.q2.mul m.d1)
  let C ← (m.d1.mul m.d2).div cden
  let a1 := lambda0.mul m.q1
  let a2 := lambda0.mul m.q2
  let s1 ← (m.d1.mul a1).add R (m.d2.mul a2)
  let cd0 ← (lambda0.mul s1).sub R C
  let CD ← cd0.div m.efficacy
  let s2 ← (m.d1.mul a2).add R (m.d2.mul a1)
  let eta ← CD.div s2
  let du ← C.div (R.densityWater.mul R.heatCapacityWater)
  let dl ← CD.div (R.densityWater.mul R.heatCapacityWater)
  pure { lambda0, du, dl, eta, efficacy := m.efficacy }

/-- `_calculate_next_rndt`, `impulse_response_model.py:216-244`.  The comparison of the unit's string with
`"watt / meter ** 2"` (line 239) is the comparison of unit containers. -/
def calcNextRndt (m : IRM N α) (t1 t2 erf efficacy : α) : Except Err α := do
  let p ← m.getTwoLayerParameters R
  let term : α ←
    if Arith.eq efficacy (Arith.ofNat 1) then pure (Arith.ofNat 0)
    else do
      let gh ← geoffroy R p.du p.dl p.lambda0 p.efficacy p.eta
      let t1h : Qty N α := ⟨t1, R.degC⟩
      let t2h : Qty N α := ⟨t2, R.degC⟩
      let x1 ← Qty.nsub R (Arith.ofNat 1) gh.phi1
      let x2 ← Qty.nsub R (Arith.ofNat 1) gh.phi2
      let s ← (x1.mul t1h).add R (x2.mul t2h)
      let term := (p.eta.muln (efficacy - Arith.ofNat 1)).mul s
      if term.unit = R.wm2 then pure term.mag
      else .error (.assertion "units should have come out as W/m^2")
  pure (erf - p.lambda0.mag * (t1 + t2) - term)

/-- `_reset`, `impulse_response_model.py:157-167` -/
def reset : Py (IRM N α) Unit := do
  let m ← Py.get
  if m.core.erf.anyNaN then Py.throw .modelState
  else match m.core.erfMag with
    | none => do
      Py.modify fun m => { m with idx := none }
      Py.throw .attribute
    | some erfMag =>
      Py.modify fun m => { m with
        idx := none, t1 := nanLike erfMag, t2 := nanLike erfMag, rndt := nanLike erfMag }

/-- `_step`, `impulse_response_model.py:173-207` -/
def step : Py (IRM N α) Unit := do
  -- lines 174-178
  let i := nextIdx (← Py.get).idx
  Py.modify fun m => { m with idx := some i }
  let m ← Py.get
  match i with
  | 0 => do                  -- lines 180-183
    let t1 ← Py.lift (setAt m.t1 0 (Arith.dec 0 1))
    Py.modify fun m => { m with t1 := t1 }
    let t2 ← Py.lift (setAt m.t2 0 (Arith.dec 0 1))
    Py.modify fun m => { m with t2 := t2 }
    let rndt ← Py.lift (setAt m.rndt 0 (Arith.dec 0 1))
    Py.modify fun m => { m with rndt := rndt }
  | j + 1 => do
    -- lines 186-192
    let t1Prev ← Py.lift (getAt m.t1 j)
    let erf ← Py.lift (m.core.erfAt j)
    let x ← Py.lift (calcNextTemp m.core.deltaTMag t1Prev m.q1Mag m.d1Mag erf)
    let t1 ← Py.lift (setAt m.t1 (j + 1) x)
    Py.modify fun m => { m with t1 := t1 }
    -- lines 194-200
    let m ← Py.get
    let t2Prev ← Py.lift (getAt m.t2 j)
    let erf ← Py.lift (m.core.erfAt j)
    let y ← Py.lift (calcNextTemp m.core.deltaTMag t2Prev m.q2Mag m.d2Mag erf)
    let t2 ← Py.lift (setAt m.t2 (j + 1) y)
    Py.modify fun m => { m with t2 := t2 }
    -- lines 202-207
    let m ← Py.get
    let t1Prev ← Py.lift (getAt m.t1 j)
    let t2Prev ← Py.lift (getAt m.t2 j)
    let erf ← Py.lift (m.core.erfAt j)
    let z ← Py.lift (m.calcNextRndt R t1Prev t2Prev erf m.efficacyMag)
    let rndt ← Py.lift (setAt m.rndt (j + 1) z)
    Py.modify fun m => { m with rndt := rndt }

/-- `_run`, `impulse_response_model.py:169-171` -/
def run : Py (IRM N α) Unit := do
  let m ← Py.get
  Py.times (step R) m.core.erf.length

/-- `_get_run_output_tss`, `impulse_response_model.py:246-282`: (variable, unit, values) -/
def outputs (m : IRM N α) : List (String × String × List α) :=
  [("Surface Temperature|Box 1", "delta_degC", m.t1),
   ("Surface Temperature|Box 2", "delta_degC", m.t2),
   ("Surface Temperature", "delta_degC", List.zipWith (· + ·) m.t1 m.t2),
   ("Heat Uptake", "W/m^2", m.rndt)]

/-- `_save_paras`, `impulse_response_model.py:44-50`, with the current values -/
def saveParas (m : IRM N α) : List (String × Qty N α) :=
  [("d1", m.d1), ("d2", m.d2), ("q1", m.q1), ("q2", m.q2), ("efficacy", m.efficacy)]

end IRM
end TwoLayer
