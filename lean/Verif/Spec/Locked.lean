import Verif.Spec.Threads

/-!
# Threads that take a lock

Threads that share one object and make all their calls inside `with lock:` blocks, one lock for the object.  A thread waits where
another one is in a block.  A turn is taking the lock, one reading or one assignment of a call, or giving the lock back.
-/

namespace TwoLayer
variable {ι σ β : Type} [DecidableEq ι]

/-- the blocks every thread has still to begin; who is in a block, and what remains of it; what the blocks of every thread have given;
the memory -/
structure Locked (ι σ β : Type) where
  todo : ι → List (Tr σ β)
  now : Option (ι × Tr σ β)
  got : ι → List (Except Err β)
  mem : σ

/-- leaving a block, or one turn in it -/
def Locked.work (S : Locked ι σ β) (i : ι) : Tr σ β → Locked ι σ β
  | .done r => { S with now := none, got := Function.update S.got i (S.got i ++ [r]) }
  | x => { S with now := some (i, (Tr.turn (x, S.mem)).1), mem := (Tr.turn (x, S.mem)).2 }

/-- beginning the next block, if there is one -/
def Locked.take (S : Locked ι σ β) (i : ι) : List (Tr σ β) → Locked ι σ β
  | [] => S
  | x :: xs => { S with todo := Function.update S.todo i xs, now := some (i, x) }

/-- the turn of thread `i`; it waits if another thread is in a block -/
def Locked.turn (S : Locked ι σ β) (i : ι) : Locked ι σ β :=
  match S.now with
  | none => S.take i (S.todo i)
  | some (j, x) => if j = i then S.work j x else S

/-- all threads after the turns of a schedule -/
def locked (blocks : ι → List (Tr σ β)) (s : σ) (sched : List ι) : Locked ι σ β :=
  sched.foldl Locked.turn ⟨blocks, none, fun _ => [], s⟩

/-- the threads in the order in which they have given the lock back -/
def released (S : Locked ι σ β) : List ι → List ι
  | [] => []
  | i :: sched =>
    match S.now, (S.turn i).now with
    | some (j, _), none => j :: released (S.turn i) sched
    | _, _ => released (S.turn i) sched

/-- No threads: blocks of calls, carried out one after the other.  The blocks of every list still to come; what the calls have
given, block by block; the object. -/
structure OneByOne (ι Op Res σ : Type) where
  todo : ι → List (List Op)
  got : ι → List (List Res)
  obj : σ

/-- the next block of list `i`, if there is one; `session` carries out the calls -/
def OneByOne.next {Op Res : Type} (session : List Op → σ → σ × List Res) (Q : OneByOne ι Op Res σ) (i : ι) : OneByOne ι Op Res σ :=
  match Q.todo i with
  | [] => Q
  | b :: bs => ⟨Function.update Q.todo i bs, Function.update Q.got i (Q.got i ++ [(session b Q.obj).2]), (session b Q.obj).1⟩

/-- blocks in some order -/
def oneByOne {Op Res : Type} (session : List Op → σ → σ × List Res) (ops : ι → List (List Op)) (s : σ) (order : List ι) :
    OneByOne ι Op Res σ := order.foldl (OneByOne.next session) ⟨ops, fun _ => [], s⟩

variable {N α : Type} [Fintype N] [DecidableEq N] [Arith α] [DecidableEq α]

/-- threads that share one two-layer object; thread `i` has these blocks of calls -/
def TLM.locked (R : Registry N α) (ops : ι → List (List (TLM.Op N α))) (m : TLM N α) (sched : List ι) :
    Locked ι (TLM N α) (List (Except Err (Option (ScmRun α)))) :=
  TwoLayer.locked (fun i => (ops i).map fun b => Tr.session (b.map (TLM.replyT R))) m sched

/-- threads that share one impulse response object; thread `i` has these blocks of calls -/
def IRM.locked (R : Registry N α) (ops : ι → List (List (IRM.Op N α))) (m : IRM N α) (sched : List ι) :
    Locked ι (IRM N α) (List (Except Err (Option (ScmRun α)))) :=
  TwoLayer.locked (fun i => (ops i).map fun b => Tr.session (b.map (IRM.replyT R))) m sched

end TwoLayer
