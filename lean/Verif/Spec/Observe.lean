import Verif.Spec.Equations

/-!
# Vocabulary for stating properties of the API
-/

namespace TwoLayer
variable {N α σ : Type} [Fintype N] [DecidableEq N] [Arith α]

/-- what each reported series (name, unit, values) shows at index `i` -/
def reportedAt (outs : List (String × String × List α)) (i : Nat) : List (String × String × Option α) :=
  outs.map fun o => (o.1, o.2.1, o.2.2[i]?)

/-- a program that makes these calls one after the other and stops at the first exception -/
def callSeq : List (Py σ Unit) → Py σ Unit
  | [] => fun s => (s, .ok ())
  | x :: xs => fun s => match x s with
    | (s', .ok _) => callSeq xs s'
    | (s', .error e) => (s', .error e)

/-- a program that makes these calls one after the other and catches every exception: final object, and
whether each call raised, in order -/
def callAll : List (Py σ Unit) → σ → σ × List (Except Err Unit)
  | [], s => (s, [])
  | x :: xs, s =>
    let r := x s
    let t := callAll xs r.1
    (t.1, r.2 :: t.2)

/-- `q` can be converted to `u` -/
def Convertible (R : Registry N α) (q : Qty N α) (u : Units N) : Prop := ∃ q', q.toUnit R u = .ok q'

/-- What a constructor complains about when its arguments `(value, name, unit)` are checked in this order: the first
one that is not a Quantity (TypeError) or cannot be converted to its unit (UnitError). -/
inductive Complaint (R : Registry N α) : List (Arg N α × String × Units N) → Err → Prop
  | bare {name u rest} : Complaint R ((.bare, name, u) :: rest) (.typeError name)
  | unit {q name u rest} : ¬ Convertible R q u → Complaint R ((.qty q, name, u) :: rest) (.unitError name)
  | next {q name u rest e} : Convertible R q u → Complaint R rest e → Complaint R ((.qty q, name, u) :: rest) e

/-- `reset()` raises because of `erf`: never set, or NaN somewhere -/
def UnsetOrNaN (e : Erf N α) : Prop := e = .unset ∨ ∃ vals u, e = .set vals u ∧ ∃ x ∈ vals, Arith.isNaN x = true

end TwoLayer
