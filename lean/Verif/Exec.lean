import Verif.Model.Scenarios
import Verif.Spec.RefRegistry

/-!
# The model at IEEE-754 doubles

Lean's `Float` as an instance of `Arith`, and a registry with `Float` conversions.  Nothing is proved here: the
definitions let `/verif/tools/replay.py` run the model on the inputs of the repository's regression tests and
compare with the recorded outputs of the real program.
-/

namespace TwoLayer

/-- IEEE-754 doubles (`np.float64` / Python `float`), the operations of `Model/Num.lean` -/
instance : Arith Float where
  ofNat n := Float.ofNat n
  dec m e := Float.ofScientific m true e
  nan := 0.0 / 0.0
  exp := Float.exp
  sqrt := Float.sqrt
  isNaN := Float.isNaN
  eq x y := x == y
  lt x y := decide (x < y)
  le x y := decide (x ≤ y)
  isPy _ := true

namespace U0
/-- sizes in SI base units, as doubles -/
def scaleF : U0 → Float
  | watt | joule | meter | kilogram | second | ddegC | kelvin => 1
  | kilowatt | kilometer => 1000
  | year => 31557600
  | month => 31557600 / 12
  | day => 86400
  | millidegC => 1 / 1000
  | percent => 1 / 100

/-- all named units -/
def all : List U0 :=
  [watt, meter, ddegC, second, year, month, joule, kilogram, kilometer, millidegC, kelvin, kilowatt, day, percent]

/-- size of a compound unit, as a double -/
def scaleOfF (u : Units U0) : Float :=
  all.foldl (fun x n => x * Float.pow (scaleF n) (Float.ofInt (u n).num / Float.ofNat (u n).den)) 1

/-- the reference registry with `Float` conversions -/
def regF : Registry U0 Float where
  watt := watt
  meter := meter
  ddegC := ddegC
  second := second
  year := year
  month := month
  joule := joule
  kilogram := kilogram
  compat u v := decide (∀ d, all.foldl (fun x n => x + u n * dim n d) 0 = all.foldl (fun x n => x + v n * dim n d) 0)
  conv u v x := x * (scaleOfF u / scaleOfF v)
  root u := fun n => ((List.finRange 4).map fun d => if base d = n then
    all.foldl (fun x k => x + u k * dim k d) 0 else 0).foldl (· + ·) 0
  parse s := if s = "W/m^2" then some (u1 watt - (2 : ℚ) • u1 meter)
    else if s = "kW/m^2" then some (u1 kilowatt - (2 : ℚ) • u1 meter)
    else if s = "K" then some (u1 kelvin) else none
  str u := toString (u watt) ++ toString (u meter) ++ toString (u ddegC) ++ toString (u second)
end U0

/-- one row of `run_scenarios`: yearly axis, drivers in `W/m^2` -/
def Exec.row {σ : Type} (V : Variant U0 Float σ) (m : σ) (erf : List Float) : Except Err (List (List Float)) :=
  let step : Py σ Unit := do
    V.setDeltaT (.qty ⟨1, U0.regF.yr⟩)
    V.setDrivers (.qty ⟨1, erf⟩ U0.regF.wm2)
    V.reset
    V.run
  match step m with
  | (m', .ok _) => .ok ((V.outputs m').map fun o => o.2.2)
  | (_, .error e) => .error e

end TwoLayer
