import Verif.Spec.Interrupt

/-!
# Threads

Python may switch between threads between any two assignments.  A thread makes calls one after the other and keeps what each
returned or raised.  A schedule says which thread gets its turn next; a turn is one reading or one assignment.  What a statement
reads it reads at once (Model/Interrupt).
-/

namespace TwoLayer

namespace Tr
variable {σ β ι : Type}

/-- carry out a call and keep what it returned or raised -/
def attempt : Tr σ β → Tr σ (Except Err β)
  | done r => done (.ok r)
  | read k => read fun s => attempt (k s)
  | write f k => write f (attempt k)

/-- calls one after the other, with what each returned or raised -/
def session : List (Tr σ β) → Tr σ (List (Except Err β))
  | [] => pure []
  | x :: xs => do
    let r ← attempt x
    let rs ← session xs
    pure (r :: rs)

/-- one turn of a thread: what it has to do, and the memory, before and after -/
def turn : Tr σ β × σ → Tr σ β × σ
  | (done r, s) => (done r, s)
  | (read k, s) => (k s, s)
  | (write f k, s) => (k, f s)

/-- all threads and the memory, after the turns of a schedule -/
def threads [DecidableEq ι] (c : (ι → Tr σ β) × σ) (sched : List ι) : (ι → Tr σ β) × σ :=
  sched.foldl (fun c i => (Function.update c.1 i (turn (c.1 i, c.2)).1, (turn (c.1 i, c.2)).2)) c
end Tr

variable {N α : Type} [Fintype N] [DecidableEq N] [Arith α] [DecidableEq α]

namespace TLM
/-- a call and what it returns; only `run_scenarios` returns something -/
def reply (R : Registry N α) : Op N α → Py (TLM N α) (Option (ScmRun α))
  | .runScenarios dv scen => do let out ← runScenarios (TLM.variant R) R dv scen; pure (some out)
  | op => do call R op; pure none

/-- the same, assignment by assignment -/
def replyT (R : Registry N α) : Op N α → Tr (TLM N α) (Option (ScmRun α))
  | .runScenarios dv scen => do let out ← runScenariosT (TLM.tvariant R) R dv scen; pure (some out)
  | op => do callT R op; pure none

/-- calls one after the other: the object at the end, and what each call returned or raised -/
def session (R : Registry N α) : List (Op N α) → TLM N α → TLM N α × List (Except Err (Option (ScmRun α)))
  | [], m => (m, [])
  | op :: ops, m => ((session R ops (reply R op m).1).1, (reply R op m).2 :: (session R ops (reply R op m).1).2)
end TLM

namespace IRM
/-- a call and what it returns; only `run_scenarios` returns something -/
def reply (R : Registry N α) : Op N α → Py (IRM N α) (Option (ScmRun α))
  | .runScenarios dv scen => do let out ← runScenarios (IRM.variant R) R dv scen; pure (some out)
  | op => do call R op; pure none

/-- the same, assignment by assignment -/
def replyT (R : Registry N α) : Op N α → Tr (IRM N α) (Option (ScmRun α))
  | .runScenarios dv scen => do let out ← runScenariosT (IRM.tvariant R) R dv scen; pure (some out)
  | op => do callT R op; pure none

/-- calls one after the other: the object at the end, and what each call returned or raised -/
def session (R : Registry N α) : List (Op N α) → IRM N α → IRM N α × List (Except Err (Option (ScmRun α)))
  | [], m => (m, [])
  | op :: ops, m => ((session R ops (reply R op m).1).1, (reply R op m).2 :: (session R ops (reply R op m).1).2)
end IRM

/-- the two classes -/
inductive Kind where
  | twoLayer
  | impulseResponse

namespace Kind
/-- objects of a class -/
def Obj (N α : Type) : Kind → Type
  | twoLayer => TLM N α
  | impulseResponse => IRM N α

/-- calls on an object of a class -/
def Op (N α : Type) : Kind → Type
  | twoLayer => TLM.Op N α
  | impulseResponse => IRM.Op N α

/-- a thread that makes these calls on its object -/
def thread (R : Registry N α) : (c : Kind) → List (c.Op N α) → Tr (c.Obj N α) (List (Except Err (Option (ScmRun α))))
  | twoLayer, ops => Tr.session (ops.map (TLM.replyT R))
  | impulseResponse, ops => Tr.session (ops.map (IRM.replyT R))

/-- these calls one after the other, without other threads -/
def session (R : Registry N α) : (c : Kind) → List (c.Op N α) → c.Obj N α → c.Obj N α × List (Except Err (Option (ScmRun α)))
  | twoLayer, ops => TLM.session R ops
  | impulseResponse, ops => IRM.session R ops
end Kind

/-- threads with an object each, of either class: thread `i` makes the calls `ops i` on object `i`; the memory is all objects -/
def separate {ι : Type} [DecidableEq ι] (R : Registry N α) (kind : ι → Kind) (ops : ∀ i, List ((kind i).Op N α)) :
    ι → Tr (∀ i, (kind i).Obj N α) (List (Except Err (Option (ScmRun α)))) := fun i =>
  Tr.onCore (fun objs => objs i) (fun objs v => Function.update objs i v) ((kind i).thread R (ops i))

/-- threads that share one two-layer object: thread `i` makes the calls `ops i` on it -/
def TLM.shared {ι : Type} (R : Registry N α) (ops : ι → List (TLM.Op N α)) :
    ι → Tr (TLM N α) (List (Except Err (Option (ScmRun α)))) := fun i => Tr.session ((ops i).map (TLM.replyT R))

/-- threads that share one impulse response object: thread `i` makes the calls `ops i` on it -/
def IRM.shared {ι : Type} (R : Registry N α) (ops : ι → List (IRM.Op N α)) :
    ι → Tr (IRM N α) (List (Except Err (Option (ScmRun α)))) := fun i => Tr.session ((ops i).map (IRM.replyT R))

end TwoLayer
