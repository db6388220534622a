import Verif.Spec.Api

/-!
# Ensembles: drivers with a second axis

`set_drivers` insists on one dimension, but `m.erf = ...` (`base.py:108-112`) accepts an array of shape
`(time, members)`.  numpy then broadcasts: entry `t` of the driver and of every result is a row with one value per
member, and parameters may be scalars or rows too.

`Ens ι α` is such an entry: one number shared by all members, or a row with one number of the arithmetic `α` for each
member `i : ι`.  Operations work member by member.  The model of the classes over `Ens ι α` is the model of what numpy
does, with these limits: all rows have the same length; drivers have two dimensions (with one-dimensional drivers and
row parameters numpy refuses to store a row in a scalar entry); and a comparison of rows has no truth value in numpy
(ValueError), so theorems about classes that compare parameters (`d1 >= d2`, `efficacy == 1`, `x ** 0.5`, Python division)
keep those parameters scalar.
-/

namespace TwoLayer

/-- one entry of an ensemble array: shared by all members, or a row -/
inductive Ens (ι α : Type) where
  | one (x : α)
  | row (f : ι → α)

namespace Ens
variable {ι α : Type}

/-- the value for one member -/
def get (i : ι) : Ens ι α → α
  | one x => x
  | row f => f i

/-- a function applied to each member's value -/
def map (g : α → α) : Ens ι α → Ens ι α
  | one x => one (g x)
  | row f => row fun i => g (f i)

/-- numpy broadcasting of a binary operation -/
def map₂ (g : α → α → α) : Ens ι α → Ens ι α → Ens ι α
  | one x, one y => one (g x y)
  | x, y => row fun i => g (x.get i) (y.get i)

open Classical in
noncomputable instance : DecidableEq (Ens ι α) := fun a b => Classical.propDecidable (a = b)

variable [Fintype ι] [Arith α]
/-- arithmetic member by member; a comparison of rows (which numpy refuses) is the comparison for all members;
`np.isnan(...).any()` looks at every member -/
instance : Arith (Ens ι α) where
  add := map₂ (· + ·)
  sub := map₂ (· - ·)
  mul := map₂ (· * ·)
  div := map₂ (· / ·)
  neg := map (- ·)
  ofNat n := one (Arith.ofNat n)
  dec m e := one (Arith.dec m e)
  nan := one Arith.nan
  exp := map Arith.exp
  sqrt := map Arith.sqrt
  isNaN
    | one x => Arith.isNaN x
    | row f => decide (∃ i, Arith.isNaN (f i) = true)
  eq
    | one x, one y => Arith.eq x y
    | x, y => decide (∀ i, Arith.eq (x.get i) (y.get i) = true)
  lt
    | one x, one y => Arith.lt x y
    | x, y => decide (∀ i, Arith.lt (x.get i) (y.get i) = true)
  le
    | one x, one y => Arith.le x y
    | x, y => decide (∀ i, Arith.le (x.get i) (y.get i) = true)
  isPy
    | one x => Arith.isPy x
    | row _ => false
end Ens

section
variable {N ι α : Type}

/-- the registry, for ensemble magnitudes: each member's number is converted -/
def Registry.members (R : Registry N α) (ι : Type) : Registry N (Ens ι α) where
  watt := R.watt
  meter := R.meter
  ddegC := R.ddegC
  second := R.second
  year := R.year
  month := R.month
  joule := R.joule
  kilogram := R.kilogram
  compat := R.compat
  conv u v x := x.map (R.conv u v)
  root := R.root
  parse := R.parse
  str := R.str

/-- a Quantity, for one member -/
def Qty.member (i : ι) (q : Qty N (Ens ι α)) : Qty N α := ⟨q.mag.get i, q.unit⟩
/-- an argument, for one member -/
def Arg.member (i : ι) : Arg N (Ens ι α) → Arg N α
  | .bare => .bare
  | .qty q => .qty (q.member i)
/-- drivers, for one member -/
def Erf.member (i : ι) : Erf N (Ens ι α) → Erf N α
  | .unset => .unset
  | .set vals u => .set (vals.map (Ens.get i)) u
/-- time step and drivers, for one member -/
def Core.member (i : ι) (c : Core N (Ens ι α)) : Core N α where
  deltaT := c.deltaT.member i
  deltaTMag := c.deltaTMag.get i
  erf := c.erf.member i
  erfMag := c.erfMag.map (List.map (Ens.get i))

/-- a two-layer ensemble object, seen by one member -/
def TLM.member (i : ι) (m : TLM N (Ens ι α)) : TLM N α where
  du := m.du.member i
  duMag := m.duMag.get i
  hcuMag := m.hcuMag.get i
  dl := m.dl.member i
  dlMag := m.dlMag.get i
  hclMag := m.hclMag.get i
  lambda0 := m.lambda0.member i
  lambda0Mag := m.lambda0Mag.get i
  a := m.a.member i
  aMag := m.aMag.get i
  efficacy := m.efficacy.member i
  efficacyMag := m.efficacyMag.get i
  eta := m.eta.member i
  etaMag := m.etaMag.get i
  core := m.core.member i
  tu := m.tu.map (Ens.get i)
  tl := m.tl.map (Ens.get i)
  rndt := m.rndt.map (Ens.get i)
  idx := m.idx

/-- an impulse response ensemble object, seen by one member -/
def IRM.member (i : ι) (m : IRM N (Ens ι α)) : IRM N α where
  q1 := m.q1.member i
  q1Mag := m.q1Mag.get i
  q2 := m.q2.member i
  q2Mag := m.q2Mag.get i
  d1 := m.d1.member i
  d1Mag := m.d1Mag.get i
  d2 := m.d2.member i
  d2Mag := m.d2Mag.get i
  efficacy := m.efficacy.member i
  efficacyMag := m.efficacyMag.get i
  core := m.core.member i
  t1 := m.t1.map (Ens.get i)
  t2 := m.t2.map (Ens.get i)
  rndt := m.rndt.map (Ens.get i)
  idx := m.idx

/-- constructor arguments, for one member -/
def TLM.Args.member (i : ι) (x : TLM.Args N (Ens ι α)) : TLM.Args N α :=
  ⟨x.du.member i, x.dl.member i, x.lambda0.member i, x.a.member i, x.efficacy.member i, x.eta.member i, x.deltaT.member i⟩

/-- a scalar argument in an ensemble program: shared by all members -/
def Arg.shared (ι : Type) : Arg N α → Arg N (Ens ι α)
  | .bare => .bare
  | .qty q => .qty ⟨.one q.mag, q.unit⟩
/-- scalar constructor arguments -/
def IRM.Args.shared (ι : Type) (x : IRM.Args N α) : IRM.Args N (Ens ι α) :=
  ⟨x.q1.shared ι, x.q2.shared ι, x.d1.shared ι, x.d2.shared ι, x.efficacy.shared ι, x.deltaT.shared ι⟩

/-- drivers with one row of values per time -/
def rows (vals : List (ι → α)) (u : Units N) : DArg N (Ens ι α) := .qty ⟨2, vals.map Ens.row⟩ u
/-- one member's drivers: its column -/
def column (i : ι) (vals : List (ι → α)) (u : Units N) : DArg N α := .qty ⟨1, vals.map fun f => f i⟩ u

/-- the calls of a two-layer ensemble program: parameters may be rows, drivers are two-dimensional -/
inductive TLM.EnsOp (N ι α : Type) where
  | setDu (v : Arg N (Ens ι α)) | setDl (v : Arg N (Ens ι α)) | setLambda0 (v : Arg N (Ens ι α))
  | setA (v : Arg N (Ens ι α)) | setEfficacy (v : Arg N (Ens ι α)) | setEta (v : Arg N (Ens ι α))
  | setDeltaT (v : Arg N (Ens ι α)) | setErf (vals : List (ι → α)) (u : Units N)
  | reset | step | run
/-- the call on the ensemble object -/
def TLM.EnsOp.op : TLM.EnsOp N ι α → TLM.Op N (Ens ι α)
  | .setDu v => .setDu v
  | .setDl v => .setDl v
  | .setLambda0 v => .setLambda0 v
  | .setA v => .setA v
  | .setEfficacy v => .setEfficacy v
  | .setEta v => .setEta v
  | .setDeltaT v => .setDeltaT v
  | .setErf vals u => .setErf (rows vals u)
  | .reset => .reset
  | .step => .step
  | .run => .run
/-- the same call in a program that runs member `i` alone -/
def TLM.EnsOp.member (i : ι) : TLM.EnsOp N ι α → TLM.Op N α
  | .setDu v => .setDu (v.member i)
  | .setDl v => .setDl (v.member i)
  | .setLambda0 v => .setLambda0 (v.member i)
  | .setA v => .setA (v.member i)
  | .setEfficacy v => .setEfficacy (v.member i)
  | .setEta v => .setEta (v.member i)
  | .setDeltaT v => .setDeltaT (v.member i)
  | .setErf vals u => .setErf (column i vals u)
  | .reset => .reset
  | .step => .step
  | .run => .run

/-- the calls of an impulse response ensemble program: scalar parameters, two-dimensional drivers -/
inductive IRM.EnsOp (N ι α : Type) where
  | setQ1 (v : Arg N α) | setQ2 (v : Arg N α) | setD1 (v : Arg N α) | setD2 (v : Arg N α)
  | setEfficacy (v : Arg N α) | setDeltaT (v : Arg N α) | setErf (vals : List (ι → α)) (u : Units N)
  | reset | step | run
/-- the call on the ensemble object -/
def IRM.EnsOp.op : IRM.EnsOp N ι α → IRM.Op N (Ens ι α)
  | .setQ1 v => .setQ1 (v.shared ι)
  | .setQ2 v => .setQ2 (v.shared ι)
  | .setD1 v => .setD1 (v.shared ι)
  | .setD2 v => .setD2 (v.shared ι)
  | .setEfficacy v => .setEfficacy (v.shared ι)
  | .setDeltaT v => .setDeltaT (v.shared ι)
  | .setErf vals u => .setErf (rows vals u)
  | .reset => .reset
  | .step => .step
  | .run => .run
/-- the same call in a program that runs member `i` alone -/
def IRM.EnsOp.member (i : ι) : IRM.EnsOp N ι α → IRM.Op N α
  | .setQ1 v => .setQ1 v
  | .setQ2 v => .setQ2 v
  | .setD1 v => .setD1 v
  | .setD2 v => .setD2 v
  | .setEfficacy v => .setEfficacy v
  | .setDeltaT v => .setDeltaT v
  | .setErf vals u => .setErf (column i vals u)
  | .reset => .reset
  | .step => .step
  | .run => .run

variable [Arith α]
/-- no driver value of any member is missing -/
def TLM.EnsOp.complete : TLM.EnsOp N ι α → Prop
  | .setErf vals _ => ∀ f ∈ vals, ∀ i, Arith.isNaN (f i) = false
  | _ => True
/-- no driver value of any member is missing -/
def IRM.EnsOp.complete : IRM.EnsOp N ι α → Prop
  | .setErf vals _ => ∀ f ∈ vals, ∀ i, Arith.isNaN (f i) = false
  | _ => True
end

section
variable {N ι α : Type} [Fintype N] [DecidableEq N] [Fintype ι] [Arith α]

/-- what each output series of the ensemble is for one member -/
def memberOutputs (i : ι) (o : List (String × String × List (Ens ι α))) : List (String × String × List α) :=
  o.map fun s => (s.1, s.2.1, s.2.2.map (Ens.get i))

/-- assign two-dimensional drivers, reset, run -/
def TLM.ensemble (R : Registry N (Ens ι α)) (vals : List (ι → α)) (u : Units N) : Py (TLM N (Ens ι α)) Unit := do
  TLM.setErf R (rows vals u)
  TLM.reset
  TLM.run
/-- assign two-dimensional drivers, reset, run -/
def IRM.ensemble (R : Registry N (Ens ι α)) (vals : List (ι → α)) (u : Units N) : Py (IRM N (Ens ι α)) Unit := do
  IRM.setErf R (rows vals u)
  IRM.reset
  IRM.run R
end

end TwoLayer
