import Verif.Proofs.Units

/-!
# A concrete registry

A registry with SI units and a few multiples, satisfying every assumption made of pint
(`Registry.Lawful`).  It is used to show that hypotheses of theorems can be met, and for counterexamples.
-/

namespace TwoLayer

/-- named units of the reference registry -/
inductive U0 where
  | watt | meter | ddegC | second | year | month | joule | kilogram
  | kilometer | millidegC | kelvin | kilowatt | day | percent
deriving DecidableEq, Repr

namespace U0
instance : Fintype U0 where
  elems := {watt, meter, ddegC, second, year, month, joule, kilogram, kilometer, millidegC, kelvin, kilowatt,
    day, percent}
  complete x := by cases x <;> simp

/-- dimension vectors (length, mass, time, temperature) -/
def dim : U0 → Fin 4 → ℚ
  | watt | kilowatt => ![2, 1, -3, 0]
  | joule => ![2, 1, -2, 0]
  | meter | kilometer => ![1, 0, 0, 0]
  | kilogram => ![0, 1, 0, 0]
  | second | year | month | day => ![0, 0, 1, 0]
  | ddegC | millidegC | kelvin => ![0, 0, 0, 1]
  | percent => ![0, 0, 0, 0]

/-- sizes in SI base units -/
noncomputable def scale : U0 → ℝ
  | watt | joule | meter | kilogram | second | ddegC | kelvin => 1
  | kilowatt | kilometer => 1000
  | year => 31557600
  | month => 31557600 / 12
  | day => 86400
  | millidegC => 1 / 1000
  | percent => 1 / 100

/-- the base unit of each dimension -/
def base : Fin 4 → U0 := ![meter, kilogram, second, ddegC]

/-- the registry -/
noncomputable def reg : Registry U0 XR where
  watt := watt
  meter := meter
  ddegC := ddegC
  second := second
  year := year
  month := month
  joule := joule
  kilogram := kilogram
  compat u v := decide (dimOf dim u = dimOf dim v)
  conv u v x := match x with
    | .fin x => .fin (x * scaleOf scale u / scaleOf scale v)
    | .nan => .nan
  root u := ∑ d, dimOf dim u d • u1 (base d)
  parse s := if s = "W/m^2" then some (u1 watt - (2 : ℚ) • u1 meter)
    else if s = "kW/m^2" then some (u1 kilowatt - (2 : ℚ) • u1 meter)
    else if s = "K" then some (u1 kelvin) else none
  str u := toString (u watt) ++ toString (u meter) ++ toString (u ddegC) ++ toString (u second)

theorem scale_pos (n : U0) : 0 < scale n := by cases n <;> norm_num [scale]

theorem base_dim (d : Fin 4) : dim (base d) = Pi.single d 1 := by
  fin_cases d <;> (funext e; fin_cases e <;> simp [base, dim])

theorem root_dim (u : Units U0) : dimOf dim (reg.root u) = dimOf dim u := by
  show dimOf dim (∑ d, dimOf dim u d • u1 (base d)) = _
  rw [dimOf_sum]
  simp only [dimOf_smul, dimOf_u1, base_dim]
  funext e
  simp [Finset.sum_apply, Pi.single_apply]

/-- the reference registry meets every assumption -/
noncomputable def lawful : reg.Lawful where
  Dim := Fin 4
  dim := dim
  compat_iff u v := by simp [reg]
  dim_joule := by funext e; fin_cases e <;> norm_num [reg, dim]
  dim_year := rfl
  dim_month := rfl
  scale := scale
  scale_pos := scale_pos
  conv_fin _ _ _ _ := rfl
  conv_nan _ _ _ := rfl
  root_dim := root_dim
  root_eq u v h := by simp only [reg, h]
  scale_joule := by norm_num [reg, scale]
  scale_year := by norm_num [reg, scale]
  scale_month := by norm_num [reg, scale]
end U0

end TwoLayer
