import Verif.Model.Base

/-!
# `utils.py`
-/

namespace TwoLayer
variable {N α : Type} [Fintype N] [DecidableEq N] [Arith α]

/-- default `f2x = 3.74 * unit_registry("W/m^2")`, `utils.py:8` -/
def defaultF2x (R : Registry N α) : Arg N α := .qty ⟨Arith.dec 374 2, R.wm2⟩

/-- `convert_lambda_to_ecs`, `utils.py:8-37` -/
def convertLambdaToEcs (lambdaVal f2x : Arg N α) : Except Err (Qty N α) :=
  match lambdaVal with
  | .bare => .error (.typeError "lambda_val is not a pint.Quantity")
  | .qty l =>
    match f2x with
    | .bare => .error (.typeError "f2x is not a pint.Quantity")
    | .qty f => f.neg.div l

end TwoLayer
