import Verif.Model.Copies

/-!
# Copies that are on their own

The same programs, were every copy (shallow or deep) independent of its original: objects are values.
-/

namespace TwoLayer
variable {α Args Op σ : Type}

namespace Copying
variable (C : Copying α Args Op σ)

/-- one event, exceptions caught, every object on its own -/
def apart (v : List σ) : CEvent Args Op → List σ
  | .create x =>
    match C.init x with
    | .ok m => v ++ [m]
    | .error _ => v
  | .copy i | .deepcopy i =>
    match v[i]? with
    | some m => v ++ [m]
    | none => v
  | .call i op =>
    match v[i]? with
    | some m => v.set i (C.call op m).1
    | none => v

/-- the `i`-th object of a program, were every object on its own -/
def objApart (p : List (CEvent Args Op)) (i : Nat) : Option σ := (p.foldl C.apart [])[i]?
end Copying

/-- the calls a program makes on its `i`-th object -/
def callsOn (i : Nat) (p : List (CEvent Args Op)) : List Op :=
  p.filterMap fun e => match e with
    | .call j op => if j = i then some op else none
    | _ => none

end TwoLayer
