import Verif.Spec.Api
import Verif.Spec.Calendar

/-!
# What `run_scenarios` should return

Written without the helpers of `Model/Scenarios.lean` (`globMatch`, `scatter`, `keepAt`, `annotate`, …).
-/

namespace TwoLayer
variable {N α : Type} [Fintype N] [DecidableEq N] [Arith α]

/-- scmdata's wildcard: `*` stands for any characters, every other character for itself -/
inductive Glob : List Char → List Char → Prop
  | nil : Glob [] []
  | char {c : Char} {p s : List Char} : c ≠ '*' → Glob p s → Glob (c :: p) (c :: s)
  | star {p s : List Char} (w : List Char) : Glob p s → Glob ('*' :: p) (w ++ s)

/-- a series to be run: its variable matches `driver_var` and its region is World -/
def Selected (driverVar : String) (r : Row α) : Prop :=
  (∃ v, r.info.get "variable" = some (.str v) ∧ Glob driverVar.toList v.toList) ∧
    r.info.get "region" = some (.str "World")

/-- the series to be run, in input order -/
def Selection (driverVar : String) (rows sel : List (Row α)) : Prop :=
  ∃ p : Row α → Bool, (∀ r, p r = true ↔ Selected driverVar r) ∧ sel = rows.filter p

/-- a series has the value `v` at time `t` -/
def HasValue (times : List Int) (vals : List α) (t : Int) (v : α) : Prop :=
  ∃ i : Nat, times[i]? = some t ∧ vals[i]? = some v

/-- the non-missing values of a series, in order -/
def present (vals : List α) : List α := vals.filter fun x => !Arith.isNaN x

/-- how many values are present before position `i` -/
def presentBefore (vals : List α) (i : Nat) : Nat := (present (vals.take i)).length

/-- values are present exactly at the `n` positions `a, …, a + n - 1` (leading and trailing values may be missing) -/
def PresentOn (vals : List α) (a n : Nat) : Prop :=
  a + n ≤ vals.length ∧ ∀ (i : Nat) (d : α), vals[i]? = some d → (Arith.isNaN d = false ↔ a ≤ i ∧ i < a + n)

/-- The returned series `row` holds `xs`, one value per non-missing value of the driver `drv`, at the times of those
driver values, and NaN (or nothing) at all other times. -/
structure OnDriverTimes (times : List Int) (drv : List α) (outTimes : List Int) (xs row : List α) : Prop where
  count : xs.length = (present drv).length
  here : ∀ (i : Nat) (t : Int) (d : α), times[i]? = some t → drv[i]? = some d → Arith.isNaN d = false →
    ∃ x, xs[presentBefore drv i]? = some x ∧ HasValue outTimes row t x
  onlyHere : ∀ (t : Int) (x : α), HasValue outTimes row t x → ∃ (i : Nat) (d : α), times[i]? = some t ∧ drv[i]? = some d ∧
    ((Arith.isNaN d = false ∧ xs[presentBefore drv i]? = some x) ∨ (Arith.isNaN d = true ∧ x = Arith.nan))

/-- column of a saved parameter: `name (units)` -/
def paramColumn (R : Registry N α) (p : String × Qty N α) : String := p.1 ++ " (" ++ R.str p.2.unit ++ ")"

/-- Metadata of a returned series: the driver's, with variable, unit, climate_model, parameter columns and run_idx
set. -/
structure OutputMeta (R : Registry N α) (model : String) (params : List (String × Qty N α)) (drv : Meta α) (idx : Nat)
    (variable_ unit : Option (MVal α)) (m : Meta α) : Prop where
  run_idx : m.get "run_idx" = some (.int idx)
  climate_model : m.get "climate_model" = some (.str model)
  variable_ok : m.get "variable" = variable_
  unit_ok : m.get "unit" = unit
  params_ok : ∀ p ∈ params, m.get (paramColumn R p) = some (.num p.2.mag)
  other : ∀ c, c ≠ "run_idx" → c ≠ "climate_model" → c ≠ "variable" → c ≠ "unit" →
    (∀ p ∈ params, c ≠ paramColumn R p) → m.get c = drv.get c

/-- What every `ScmRun` guarantees: all series have the same metadata columns, none twice, and one value (possibly NaN)
per time. -/
structure ScmRun.WellFormed (run : ScmRun α) : Prop where
  columns : ∀ r ∈ run.rows, ∀ r' ∈ run.rows, r.info.map Prod.fst = r'.info.map Prod.fst
  nodup : ∀ r ∈ run.rows, (r.info.map Prod.fst).Nodup
  values : ∀ r ∈ run.rows, r.vals.length = run.times.length

/-- Two series differ in a metadata column that `run_scenarios` does not overwrite. -/
def Distinguishable (R : Registry N α) (params : List (String × Qty N α)) (r r' : Row α) : Prop :=
  ∃ c, c ≠ "climate_model" ∧ (∀ p ∈ params, c ≠ paramColumn R p) ∧ r.info.get c ≠ r'.info.get c

/-- the time step for an axis: one year if consecutive times lie in consecutive calendar years, otherwise one month if they
are 28 to 31 days apart; no step otherwise -/
def AxisStep (R : Registry N α) (times : List Int) (dt : Qty N α) : Prop :=
  ∃ jan1, Cal.IsJan1 jan1 ∧ ((Cal.YearlyAxis jan1 times ∧ dt = ⟨Arith.ofNat 1, R.yr⟩) ∨
    (¬ Cal.YearlyAxis jan1 times ∧ Cal.MonthlyAxis times ∧ dt = ⟨Arith.ofNat 1, R.mon⟩))

/-- `set_drivers`, `reset`, `run` -/
def Variant.simulate {σ : Type} (V : Variant N α σ) (d : DArg N α) : Py σ Unit := do
  V.setDrivers d
  V.reset
  V.run

/-- Row `n` of the returned frame is the series `xs` of variable `name`, unit `unit` of the `i`-th selected series
`drv`. -/
def ReturnedRow (R : Registry N α) (model : String) (params : List (String × Qty N α)) (scen out : ScmRun α)
    (i : Nat) (drv : Row α) (n : Nat) (name unit : Option (MVal α)) (xs : List α) : Prop :=
  ∃ row, out.rows[n]? = some row ∧ OutputMeta R model params drv.info i name unit row.info ∧
    OnDriverTimes scen.times drv.vals out.times xs row.vals

/-- the parameters saved as metadata by the two-layer model: all public ones but `delta_t` -/
def TLM.Public.params (k : TLM.Public N α) : List (String × Qty N α) :=
  [("du", k.du), ("dl", k.dl), ("lambda0", k.lambda0), ("a", k.a), ("efficacy", k.efficacy), ("eta", k.eta)]

/-- the parameters saved as metadata by the impulse response model: all public ones but `delta_t` -/
def IRM.Public.params (k : IRM.Public N α) : List (String × Qty N α) :=
  [("d1", k.d1), ("d2", k.d2), ("q1", k.q1), ("q2", k.q2), ("efficacy", k.efficacy)]

end TwoLayer
