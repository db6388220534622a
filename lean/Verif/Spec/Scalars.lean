import Verif.Spec.Api
import Verif.Model.Utils

/-!
# Python numbers and numpy scalars

`Sc α`: a number of the arithmetic `α` together with the kind of scalar it is, a Python number or a `np.float64`.
Operations compute as in `α`; the result is a numpy scalar if an operand is one, and always for `np.exp`.  (A Quantity
taken from an array Quantity, as in `for eta in np.array([0, 0.8]) * ur("W/m^2/K")` of the notebooks, has a numpy scalar
as its magnitude.)  `erase` forgets the kind: what the program would hold if all scalars were Python numbers.
-/

namespace TwoLayer

/-- a scalar: its value, and whether it is a numpy scalar -/
structure Sc (α : Type) where
  val : α
  np : Bool
deriving DecidableEq

namespace Sc
variable {α : Type} [Arith α]
/-- arithmetic on scalars of both kinds -/
instance : Arith (Sc α) where
  add x y := ⟨x.val + y.val, x.np || y.np⟩
  sub x y := ⟨x.val - y.val, x.np || y.np⟩
  mul x y := ⟨x.val * y.val, x.np || y.np⟩
  div x y := ⟨x.val / y.val, x.np || y.np⟩
  neg x := ⟨-x.val, x.np⟩
  ofNat n := ⟨Arith.ofNat n, false⟩
  dec m e := ⟨Arith.dec m e, false⟩
  nan := ⟨Arith.nan, false⟩
  exp x := ⟨Arith.exp x.val, true⟩
  sqrt x := ⟨Arith.sqrt x.val, x.np⟩
  isNaN x := Arith.isNaN x.val
  eq x y := Arith.eq x.val y.val
  lt x y := Arith.lt x.val y.val
  le x y := Arith.le x.val y.val
  isPy x := !x.np && Arith.isPy x.val
end Sc

section
variable {N α : Type}

/-- the registry, for scalars of both kinds: a conversion does not change the kind -/
def Registry.scalars (R : Registry N α) : Registry N (Sc α) where
  watt := R.watt
  meter := R.meter
  ddegC := R.ddegC
  second := R.second
  year := R.year
  month := R.month
  joule := R.joule
  kilogram := R.kilogram
  compat := R.compat
  conv u v x := ⟨R.conv u v x.val, x.np⟩
  root := R.root
  parse := R.parse
  str := R.str

/-- forget the kind of the magnitude -/
def Qty.erase (q : Qty N (Sc α)) : Qty N α := ⟨q.mag.val, q.unit⟩
/-- the same for an argument -/
def Arg.erase : Arg N (Sc α) → Arg N α
  | .bare => .bare
  | .qty q => .qty q.erase
/-- the same for an array -/
def Arr.erase (a : Arr (Sc α)) : Arr α := ⟨a.ndim, a.vals.map Sc.val⟩
/-- the same for a driver argument -/
def DArg.erase : DArg N (Sc α) → DArg N α
  | .bare a => .bare a.erase
  | .qty a u => .qty a.erase u
/-- the same for stored drivers -/
def Erf.erase : Erf N (Sc α) → Erf N α
  | .unset => .unset
  | .set vals u => .set (vals.map Sc.val) u
/-- the same for time step and drivers -/
def Core.erase (c : Core N (Sc α)) : Core N α where
  deltaT := c.deltaT.erase
  deltaTMag := c.deltaTMag.val
  erf := c.erf.erase
  erfMag := c.erfMag.map (List.map Sc.val)

/-- the two-layer object with every scalar a Python number -/
def TLM.erase (m : TLM N (Sc α)) : TLM N α where
  du := m.du.erase
  duMag := m.duMag.val
  hcuMag := m.hcuMag.val
  dl := m.dl.erase
  dlMag := m.dlMag.val
  hclMag := m.hclMag.val
  lambda0 := m.lambda0.erase
  lambda0Mag := m.lambda0Mag.val
  a := m.a.erase
  aMag := m.aMag.val
  efficacy := m.efficacy.erase
  efficacyMag := m.efficacyMag.val
  eta := m.eta.erase
  etaMag := m.etaMag.val
  core := m.core.erase
  tu := m.tu.map Sc.val
  tl := m.tl.map Sc.val
  rndt := m.rndt.map Sc.val
  idx := m.idx

/-- the impulse response object with every scalar a Python number -/
def IRM.erase (m : IRM N (Sc α)) : IRM N α where
  q1 := m.q1.erase
  q1Mag := m.q1Mag.val
  q2 := m.q2.erase
  q2Mag := m.q2Mag.val
  d1 := m.d1.erase
  d1Mag := m.d1Mag.val
  d2 := m.d2.erase
  d2Mag := m.d2Mag.val
  efficacy := m.efficacy.erase
  efficacyMag := m.efficacyMag.val
  core := m.core.erase
  t1 := m.t1.map Sc.val
  t2 := m.t2.map Sc.val
  rndt := m.rndt.map Sc.val
  idx := m.idx

/-- constructor arguments -/
def TLM.Args.erase (x : TLM.Args N (Sc α)) : TLM.Args N α :=
  ⟨x.du.erase, x.dl.erase, x.lambda0.erase, x.a.erase, x.efficacy.erase, x.eta.erase, x.deltaT.erase⟩
/-- constructor arguments -/
def IRM.Args.erase (x : IRM.Args N (Sc α)) : IRM.Args N α :=
  ⟨x.q1.erase, x.q2.erase, x.d1.erase, x.d2.erase, x.efficacy.erase, x.deltaT.erase⟩
/-- converted parameters -/
def TLM.IRParams.erase (r : TLM.IRParams N (Sc α)) : TLM.IRParams N α :=
  ⟨r.d1.erase, r.d2.erase, r.q1.erase, r.q2.erase, r.efficacy.erase⟩
/-- converted parameters -/
def IRM.TLParams.erase (r : IRM.TLParams N (Sc α)) : IRM.TLParams N α :=
  ⟨r.lambda0.erase, r.du.erase, r.dl.erase, r.eta.erase, r.efficacy.erase⟩

/-- a metadata value -/
def MVal.erase : MVal (Sc α) → MVal α
  | .str s => .str s
  | .num x => .num x.val
  | .int n => .int n
/-- a series -/
def Row.erase (r : Row (Sc α)) : Row α := ⟨r.info.map fun kv => (kv.1, kv.2.erase), r.vals.map Sc.val⟩
/-- a table -/
def ScmRun.erase (s : ScmRun (Sc α)) : ScmRun α := ⟨s.times, s.rows.map Row.erase⟩

/-- a call on a two-layer object -/
def TLM.Op.erase : TLM.Op N (Sc α) → TLM.Op N α
  | .setDu v => .setDu v.erase
  | .setDl v => .setDl v.erase
  | .setLambda0 v => .setLambda0 v.erase
  | .setA v => .setA v.erase
  | .setEfficacy v => .setEfficacy v.erase
  | .setEta v => .setEta v.erase
  | .setDeltaT v => .setDeltaT v.erase
  | .setErf v => .setErf v.erase
  | .setDrivers v => .setDrivers v.erase
  | .reset => .reset
  | .step => .step
  | .run => .run
  | .runScenarios dv scen => .runScenarios dv scen.erase

/-- a call on an impulse response object -/
def IRM.Op.erase : IRM.Op N (Sc α) → IRM.Op N α
  | .setQ1 v => .setQ1 v.erase
  | .setQ2 v => .setQ2 v.erase
  | .setD1 v => .setD1 v.erase
  | .setD2 v => .setD2 v.erase
  | .setEfficacy v => .setEfficacy v.erase
  | .setDeltaT v => .setDeltaT v.erase
  | .setErf v => .setErf v.erase
  | .setDrivers v => .setDrivers v.erase
  | .reset => .reset
  | .step => .step
  | .run => .run
  | .runScenarios dv scen => .runScenarios dv scen.erase

/-- Exceptions after which the kinds of scalar may make a difference: division by zero, square root of a negative
number; and scmdata's refusal of duplicate metadata, since the model compares metadata with their kinds. -/
def Err.kind : Err → Prop
  | .zeroDivision | .complex | .nonUniqueMeta => True
  | _ => False
end

end TwoLayer
