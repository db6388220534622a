import Verif.Proofs.Locked
import Verif.Props.Threads

/-!
# C121: calls under a lock

`locked`, `released`, `oneByOne`, `Locked` are in `Spec/Locked.lean`.  A schedule is any list of threads; since it can end
anywhere, what is shown of the end of a schedule holds at every moment.
-/

set_option linter.unusedSimpArgs false
set_option linter.unusedSectionVars false

namespace TwoLayer
variable {N α ι : Type} [Fintype N] [DecidableEq N] [Arith α] [DecidableEq α] [DecidableEq ι]

/-- **C121** (no deadlock). Whatever the threads have in their blocks, wherever they are: there is a way on after which the lock
is free and any given threads have come to their end; and only the thread in a block makes turns that change anything. -/
theorem C121_progress {σ β : Type} (blocks : ι → List (Tr σ β)) (s : σ) (sched : List ι) (is : List ι) :
    (∃ more, (locked blocks s (sched ++ more)).now = none ∧ ∀ i ∈ is, (locked blocks s (sched ++ more)).todo i = []) ∧
    ∀ j x, (locked blocks s sched).now = some (j, x) → ∀ i, i ≠ j → locked blocks s (sched ++ [i]) = locked blocks s sched := by
  refine ⟨?_, fun j x hx i hi => ?_⟩
  · obtain ⟨more, h1, h2⟩ := no_deadlock (locked blocks s sched) is
    exact ⟨more, by rw [locked_append]; exact h1, fun i hi => by rw [locked_append]; exact h2 i hi⟩
  · rw [locked_append]
    exact turn_other hx (Ne.symm hi)

/-! ## two-layer -/

namespace TLM
/-- calls one after the other, as one call that ends at the first that raises -/
def calls (R : Registry N α) : List (Op N α) → Py (TLM N α) Unit
  | [] => pure ()
  | op :: ops => do call R op; calls R ops

theorem reply_call (R : Registry N α) {op : Op N α} (h : ∀ dv scen, op ≠ .runScenarios dv scen) (m : TLM N α) :
    reply R op m = ((call R op m).1, (call R op m).2.map fun _ => none) := by
  have e : reply R op = (do call R op; pure none) := by
    cases op with
    | runScenarios dv scen => exact absurd rfl (h dv scen)
    | _ => rfl
  rw [e, Py.bind_apply]
  rcases call R op m with ⟨s, _ | _⟩ <;> rfl

/-- if no call raises, that is the session -/
theorem session_calls (R : Registry N α) {ops : List (Op N α)} (h : ∀ op ∈ ops, ∀ dv scen, op ≠ .runScenarios dv scen) {m m' : TLM N α}
    (hc : calls R ops m = (m', .ok ())) : session R ops m = (m', ops.map fun _ => .ok none) := by
  induction ops generalizing m with
  | nil =>
    have := (Prod.mk.inj hc).1
    rw [session, show m = m' from this]; rfl
  | cons op ops ih =>
    rw [calls, Py.bind_apply] at hc
    rw [session, reply_call R (h op (by simp))]
    rcases hr : call R op m with ⟨s, e | u⟩
    · rw [hr] at hc; cases (Prod.mk.inj hc).2
    · rw [hr] at hc
      rw [ih (fun o ho => h o (by simp [ho])) hc]; rfl

/-- what a thread that has all its calls of a block behind it, and has not given the lock back, finds -/
theorem locked_done (R : Registry N α) (ops : ι → List (List (Op N α))) (m : TLM N α) (sched : List ι) {i : ι}
    {r : Except Err (List (Except Err (Option (ScmRun α))))} (h : (locked R ops m sched).now = some (i, .done r)) :
    ∃ Q : OneByOne ι (Op N α) (Except Err (Option (ScmRun α))) (TLM N α), ∃ b bs, ∃ order,
      Q = oneByOne (session R) ops m order ∧ Q.todo i = b :: bs ∧ (∀ j, (locked R ops m sched).got j = (Q.got j).map .ok) ∧
      (locked R ops m sched).mem = (session R b Q.obj).1 ∧ r = .ok (session R b Q.obj).2 := by
  have hr := locked_refines (fun b m => whole_session R b m) ops m sched
  unfold Refines at hr
  rw [show TwoLayer.locked (fun i => (ops i).map fun b => Tr.session (b.map (replyT R))) m sched = locked R ops m sched from rfl, h] at hr
  obtain ⟨b, bs, h1, -, -, h4, h5⟩ := hr
  rw [whole_session R b] at h5
  obtain ⟨e1, e2⟩ := Prod.mk.inj h5
  exact ⟨_, b, bs, _, rfl, h1, h4, e1, e2⟩
end TLM

/-- **C121** (two-layer, one after the other). However many threads share one object, whatever calls they make in their blocks and
however they are scheduled: whenever no thread is in a block, the object, and what every call of every thread has returned or
raised, are what the blocks give one after the other, without threads, in the order in which the lock was given back; and later
this order is only continued. -/
theorem C121_two_layer_serial (R : Registry N α) (m : TLM N α) (ops : ι → List (List (TLM.Op N α))) :
    (∀ sched more, released (TLM.locked R ops m []) sched <+: released (TLM.locked R ops m []) (sched ++ more)) ∧
    ∀ sched, (TLM.locked R ops m sched).now = none →
      (TLM.locked R ops m sched).mem =
        (oneByOne (TLM.session R) ops m (released (TLM.locked R ops m []) sched)).obj ∧ ∀ i,
      (TLM.locked R ops m sched).got i =
        ((oneByOne (TLM.session R) ops m (released (TLM.locked R ops m []) sched)).got i).map .ok ∧
      (TLM.locked R ops m sched).todo i =
        ((oneByOne (TLM.session R) ops m (released (TLM.locked R ops m []) sched)).todo i).map
          fun b => Tr.session (b.map (TLM.replyT R)) := by
  refine ⟨fun sched more => by rw [released_append]; exact List.prefix_append _ _, fun sched h => ?_⟩
  have hr := locked_refines (fun b m => TLM.whole_session R b m) ops m sched
  unfold Refines at hr
  rw [show TwoLayer.locked (fun i => (ops i).map fun b => Tr.session (b.map (TLM.replyT R))) m sched = TLM.locked R ops m sched from rfl, h] at hr
  obtain ⟨h1, h2, h3⟩ := hr
  exact ⟨h3, fun i => ⟨h2 i, h1 i⟩⟩

/-- **C121** (two-layer, `run_scenarios`). Threads that share one object and make, in blocks, any calls but assignments of
parameters other than `delta_t`: whatever the schedule, every block that has come to its end has one result for every call, and
every `run_scenarios` in it returned or raised what it returns or raises on the object as it was at first. -/
theorem C121_two_layer_scenarios {R : Registry N α} (D : R.Dimensional) (m : TLM N α) (ops : ι → List (List (TLM.Op N α)))
    (h : ∀ i, ∀ b ∈ ops i, ∀ op ∈ b, op.IsRunOrScenarios) (sched : List ι) (i : ι) (k : ℕ)
    (r : Except Err (List (Except Err (Option (ScmRun α))))) (hr : ((TLM.locked R ops m sched).got i)[k]? = some r) :
    ∃ b rs, (ops i)[k]? = some b ∧ r = .ok rs ∧ rs.length = b.length ∧ ∀ (j : ℕ) (dv : String) (scen : ScmRun α),
      b[j]? = some (.runScenarios dv scen) →
        rs[j]? = some ((runScenarios (TLM.variant R) R dv scen m).2.map some) := by
  have hk : ∀ i, ∀ b ∈ ops i, ∀ s, TLM.usedNoDt R (TLM.session R b s).1 = s.usedNoDt R := by
    intro i b hb s
    have hs : Tr.Keeps (TLM.usedNoDt R) (Tr.session (b.map (TLM.replyT R))) := by
      refine .session fun x hx => ?_
      obtain ⟨op, hop, rfl⟩ := List.mem_map.mp hx
      exact TLM.reply_keeps R (TLM.callT_keeps_noDt R (h i b hb op hop)) fun dv scen _ => TLM.runScenariosT_keeps R dv scen
    have := hs.whole s
    rw [TLM.whole_session] at this
    exact this
  have hg : ∃ order, ∀ j, (TLM.locked R ops m sched).got j = ((oneByOne (TLM.session R) ops m order).got j).map .ok := by
    have hf := locked_refines (fun b m => TLM.whole_session R b m) ops m sched
    unfold Refines at hf
    rw [show TwoLayer.locked (fun i => (ops i).map fun b => Tr.session (b.map (TLM.replyT R))) m sched = TLM.locked R ops m sched from rfl] at hf
    rcases hn : (TLM.locked R ops m sched).now with _ | ⟨j, x⟩
    · rw [hn] at hf
      exact ⟨_, hf.2.1⟩
    · rw [hn] at hf
      obtain ⟨b, bs, -, -, -, h4, -⟩ := hf
      exact ⟨_, h4⟩
  obtain ⟨order, hg⟩ := hg
  rw [hg i, List.getElem?_map] at hr
  rcases hq : ((oneByOne (TLM.session R) ops m order).got i)[k]? with _ | rs
  · rw [hq] at hr; cases hr
  rw [hq] at hr
  obtain ⟨b, s, h1, h2, h3⟩ := ((oneByOne_inv ops hk m order).2 i).2 k rs hq
  have hb : b ∈ ops i := List.mem_of_getElem? h1
  refine ⟨b, rs, h1, (Option.some.inj hr).symm, ?_, fun j dv scen hj => ?_⟩
  · rw [h3]; exact TLM.session_length R b s
  rw [h3]
  obtain ⟨s', h4, h5⟩ := TLM.session_get R (P := fun op => op ∈ b) (f := TLM.usedNoDt R) (fun op hop s => by
    have := (TLM.reply_keeps R (TLM.callT_keeps_noDt R (h i b hb op hop)) fun dv scen _ => TLM.runScenariosT_keeps R dv scen).whole s
    rw [TLM.whole_reply] at this
    exact this) (fun _ ho => ho) s j hj
  rw [h5]
  have : TLM.reply R (.runScenarios dv scen) s' =
      (do let out ← runScenarios (TLM.variant R) R dv scen; pure (some out) : Py (TLM N α) _) s' := rfl
  rw [this, Py.bind_apply, ← TLM.runScenarios_used D (h4.trans h2) dv scen]
  rcases runScenarios (TLM.variant R) R dv scen s' with ⟨s'', _ | _⟩ <;> rfl

/-- **C121** (two-layer, `set_drivers`, `reset`, `run`). Threads that share one object and make, in blocks, calls of
`set_drivers`, `reset`, `step`, `run`, assignments of `erf`: a thread that has `set_drivers`, `reset`, `run` behind it and has not
given the lock back finds the object exactly as these calls leave the object as it was at first, no other thread ever having
touched it. -/
theorem C121_two_layer_run (R : Registry N α) (m : TLM N α) (ops : ι → List (List (TLM.Op N α)))
    (h : ∀ i, ∀ b ∈ ops i, ∀ op ∈ b, op.IsRun) (sched : List ι) (i : ι) (d : DArg N α) (m' : TLM N α)
    (hb : (ops i)[((TLM.locked R ops m sched).got i).length]? = some [.setDrivers d, .reset, .run])
    (hs : TLM.simulate R d m = (m', .ok ())) (r : Except Err (List (Except Err (Option (ScmRun α)))))
    (hr : (TLM.locked R ops m sched).now = some (i, .done r)) :
    r = .ok [.ok none, .ok none, .ok none] ∧ (TLM.locked R ops m sched).mem = m' := by
  obtain ⟨Q, b, bs, order, hQ, h1, h2, h3, h4⟩ := TLM.locked_done R ops m sched hr
  have hk : ∀ i, ∀ b ∈ ops i, ∀ s, TLM.used (TLM.session R b s).1 = s.used := by
    intro i b hb s
    have hs : Tr.Keeps TLM.used (Tr.session (b.map (TLM.replyT R))) := by
      refine .session fun x hx => ?_
      obtain ⟨op, hop, rfl⟩ := List.mem_map.mp hx
      exact TLM.reply_keeps R (TLM.callT_keeps R (h i b hb op hop)) fun dv scen he => by
        have := h i b hb op hop; rw [he] at this; exact this.elim
    have := hs.whole s
    rw [TLM.whole_session] at this
    exact this
  obtain ⟨e1, e2⟩ := oneByOne_inv ops hk m order
  rw [← hQ] at e1 e2
  obtain ⟨e3, -⟩ := e2 i
  have hlen : ((TLM.locked R ops m sched).got i).length = (Q.got i).length := by rw [h2, List.length_map]
  have hbb : b = [.setDrivers d, .reset, .run] := by
    rw [hlen, e3, h1, List.getElem?_append_right (by simp)] at hb
    have hl : (List.take (Q.got i).length (ops i)).length = (Q.got i).length := by
      have h5 := congrArg List.length e3
      rw [h1] at h5
      simp at h5 ⊢
      omega
    rw [hl] at hb
    simpa using hb
  obtain ⟨u1, u2⟩ := TLM.simulate_used R e1 d
  have hok : (TLM.simulate R d Q.obj).2 = .ok () := by rw [u1, hs]
  have hc : TLM.calls R [.setDrivers d, .reset, .run] Q.obj = (m', .ok ()) := by
    have hm : (TLM.simulate R d Q.obj).1 = m' := by rw [u2 hok, hs]
    have : TLM.simulate R d Q.obj = (m', .ok ()) := Prod.ext hm hok
    rw [← this]
    simp only [TLM.calls, TLM.simulate, TLM.call, Py.bind_apply]
    rcases TLM.setDrivers R d Q.obj with ⟨s, e | _⟩
    · rfl
    dsimp only
    rcases TLM.reset s with ⟨s, e | _⟩
    · rfl
    dsimp only
    rcases TLM.run s with ⟨s, e | _⟩ <;> rfl
  have hS := TLM.session_calls R (ops := [.setDrivers d, .reset, .run]) (by
    intro op hop dv scen
    simp only [List.mem_cons, List.not_mem_nil, or_false] at hop
    rcases hop with rfl | rfl | rfl <;> intro hh <;> cases hh) hc
  rw [hbb, hS] at h3 h4
  exact ⟨h4, h3⟩

/-- **C121** (two-layer, all parameters). Threads that share one object, whatever they do in their blocks, assignments of
parameters included: a thread that has assigned all parameters and called `set_drivers`, `reset`, `run` in one block and has not
given the lock back finds the object exactly as these three calls leave a new object with these parameters. -/
theorem C121_two_layer_parameters {R : Registry N α} (D : R.Dimensional) (m : TLM N α) (ops : ι → List (List (TLM.Op N α)))
    (sched : List ι) (i : ι) (d : DArg N α) {x : TLM.Args N α} {m₀ m' : TLM N α} (hx : TLM.init R x = .ok m₀)
    (hb : (ops i)[((TLM.locked R ops m sched).got i).length]? = some
      [.setDu x.du, .setDl x.dl, .setLambda0 x.lambda0, .setA x.a, .setEfficacy x.efficacy, .setEta x.eta, .setDeltaT x.deltaT, .setDrivers d, .reset, .run])
    (hs : TLM.simulate R d m₀ = (m', .ok ())) (r : Except Err (List (Except Err (Option (ScmRun α)))))
    (hr : (TLM.locked R ops m sched).now = some (i, .done r)) :
    r = .ok (List.replicate 10 (.ok none)) ∧ (TLM.locked R ops m sched).mem = m' := by
  obtain ⟨Q, b, bs, order, hQ, h1, h2, h3, h4⟩ := TLM.locked_done R ops m sched hr
  obtain ⟨-, e2⟩ := oneByOne_inv (session := TLM.session R) (f := fun _ => ()) ops (fun _ _ _ _ => rfl) m order
  rw [← hQ] at e2
  obtain ⟨e3, -⟩ := e2 i
  have hlen : ((TLM.locked R ops m sched).got i).length = (Q.got i).length := by rw [h2, List.length_map]
  have hbb : b = [.setDu x.du, .setDl x.dl, .setLambda0 x.lambda0, .setA x.a, .setEfficacy x.efficacy, .setEta x.eta, .setDeltaT x.deltaT, .setDrivers d, .reset, .run] := by
    rw [hlen, e3, h1, List.getElem?_append_right (by simp)] at hb
    have hl : (List.take (Q.got i).length (ops i)).length = (Q.got i).length := by
      have h5 := congrArg List.length e3
      rw [h1] at h5
      simp at h5 ⊢
      omega
    rw [hl] at hb
    simpa using hb
  obtain ⟨m1, a1, a2⟩ := TLM.setAll_ok D hx Q.obj
  obtain ⟨u1, u2⟩ := TLM.simulate_used R a2 d
  have hok : (TLM.simulate R d m1).2 = .ok () := by rw [u1, hs]
  have hm : TLM.simulate R d m1 = (m', .ok ()) := Prod.ext (by rw [u2 hok, hs]) hok
  have hc : TLM.calls R b Q.obj = (m', .ok ()) := by
    have e : ∀ s, TLM.calls R b s = (do TLM.setAll R x; TLM.simulate R d : Py (TLM N α) Unit) s := by
      intro s
      rw [hbb]
      simp only [TLM.calls, TLM.simulate, TLM.setAll, TLM.call, Py.bind_apply]
      rcases TLM.setDu R x.du s with ⟨s, e | _⟩
      · rfl
      dsimp only
      rcases TLM.setDl R x.dl s with ⟨s, e | _⟩
      · rfl
      dsimp only
      rcases TLM.setLambda0 R x.lambda0 s with ⟨s, e | _⟩
      · rfl
      dsimp only
      rcases TLM.setA R x.a s with ⟨s, e | _⟩
      · rfl
      dsimp only
      rcases TLM.setEfficacy R x.efficacy s with ⟨s, e | _⟩
      · rfl
      dsimp only
      rcases TLM.setEta R x.eta s with ⟨s, e | _⟩
      · rfl
      dsimp only
      rcases TLM.setDeltaT R x.deltaT s with ⟨s, e | _⟩
      · rfl
      dsimp only
      rcases TLM.setDrivers R d s with ⟨s, e | _⟩
      · rfl
      dsimp only
      rcases TLM.reset s with ⟨s, e | _⟩
      · rfl
      dsimp only
      rcases TLM.run s with ⟨s, e | _⟩ <;> rfl
    rw [e, Py.bind_apply, a1]
    exact hm
  have hS := TLM.session_calls R (ops := b) (by
    intro op hop dv scen
    rw [hbb] at hop
    simp only [List.mem_cons, List.not_mem_nil, or_false] at hop
    rcases hop with rfl | rfl | rfl | rfl | rfl | rfl | rfl | rfl | rfl | rfl <;> intro hh <;> cases hh) hc
  rw [hS] at h3 h4
  rw [hbb] at h4
  exact ⟨h4, h3⟩

/-- Concrete case: the default object, any number of threads that each have `set_drivers`, `reset`, `run` with `[1, 2, 3] W/m²` in a
block, twice: any of them gets to where `C121_two_layer_run` finds it, and then, whatever turns came before and however
many threads there are, the simulation has gone through. -/
example (i : ι) : ∃ m m' : TLM U0 XR, TLM.init U0.reg (TLM.defaultArgs U0.reg) = .ok m ∧
    TLM.simulate U0.reg (exDrivers U0.reg) m = (m', .ok ()) ∧ ∃ sched : List ι, ∃ r,
    (TLM.locked U0.reg (fun _ => List.replicate 2 [.setDrivers (exDrivers U0.reg), .reset, .run]) m sched).now = some (i, .done r) ∧
    r = .ok [.ok none, .ok none, .ok none] ∧
    (TLM.locked U0.reg (fun _ => List.replicate 2 [.setDrivers (exDrivers U0.reg), .reset, .run]) m sched).mem = m' := by
  obtain ⟨m, h1, h2⟩ := TLM.default_exists U0.lawful
  obtain ⟨m', hm', -⟩ := TLM.produces_sol U0.lawful (TLM.init_coherent _ h1) h2 TLPar.default_ok (by norm_num)
    (exDrivers_forcing (R := U0.reg))
  have e : (TLM.locked (ι := ι) U0.reg (fun _ => List.replicate 2 [.setDrivers (exDrivers U0.reg), .reset, .run]) m [i]).now =
      some (i, Tr.session ([.setDrivers (exDrivers U0.reg), .reset, .run].map (TLM.replyT U0.reg))) := rfl
  obtain ⟨n, r, h3, h4⟩ := reach_done e
  have h5 : (TLM.locked (ι := ι) U0.reg (fun _ => List.replicate 2 [.setDrivers (exDrivers U0.reg), .reset, .run]) m ([i] ++ List.replicate n i)).now =
      some (i, .done r) := by
    unfold TLM.locked at h3 ⊢
    rw [locked_append]; exact h3
  have h6 : (TLM.locked (ι := ι) U0.reg (fun _ => List.replicate 2 [.setDrivers (exDrivers U0.reg), .reset, .run]) m ([i] ++ List.replicate n i)).got i = [] := by
    unfold TLM.locked at h4 ⊢
    rw [locked_append, h4]; rfl
  refine ⟨m, m', h1, hm', _, r, h5, ?_⟩
  refine C121_two_layer_run U0.reg m _ (fun j b hb op hop => ?_) _ i _ m' ?_ hm' r h5
  · obtain rfl := List.eq_of_mem_replicate hb
    simp only [List.mem_cons, List.not_mem_nil, or_false] at hop
    rcases hop with rfl | rfl | rfl <;> exact trivial
  · rw [h6]; rfl

/-! ## impulse response -/

namespace IRM
/-- calls one after the other, as one call that ends at the first that raises -/
def calls (R : Registry N α) : List (Op N α) → Py (IRM N α) Unit
  | [] => pure ()
  | op :: ops => do call R op; calls R ops

theorem reply_call (R : Registry N α) {op : Op N α} (h : ∀ dv scen, op ≠ .runScenarios dv scen) (m : IRM N α) :
    reply R op m = ((call R op m).1, (call R op m).2.map fun _ => none) := by
  have e : reply R op = (do call R op; pure none) := by
    cases op with
    | runScenarios dv scen => exact absurd rfl (h dv scen)
    | _ => rfl
  rw [e, Py.bind_apply]
  rcases call R op m with ⟨s, _ | _⟩ <;> rfl

/-- if no call raises, that is the session -/
theorem session_calls (R : Registry N α) {ops : List (Op N α)} (h : ∀ op ∈ ops, ∀ dv scen, op ≠ .runScenarios dv scen) {m m' : IRM N α}
    (hc : calls R ops m = (m', .ok ())) : session R ops m = (m', ops.map fun _ => .ok none) := by
  induction ops generalizing m with
  | nil =>
    have := (Prod.mk.inj hc).1
    rw [session, show m = m' from this]; rfl
  | cons op ops ih =>
    rw [calls, Py.bind_apply] at hc
    rw [session, reply_call R (h op (by simp))]
    rcases hr : call R op m with ⟨s, e | u⟩
    · rw [hr] at hc; cases (Prod.mk.inj hc).2
    · rw [hr] at hc
      rw [ih (fun o ho => h o (by simp [ho])) hc]; rfl

/-- what a thread that has all its calls of a block behind it, and has not given the lock back, finds -/
theorem locked_done (R : Registry N α) (ops : ι → List (List (Op N α))) (m : IRM N α) (sched : List ι) {i : ι}
    {r : Except Err (List (Except Err (Option (ScmRun α))))} (h : (locked R ops m sched).now = some (i, .done r)) :
    ∃ Q : OneByOne ι (Op N α) (Except Err (Option (ScmRun α))) (IRM N α), ∃ b bs, ∃ order,
      Q = oneByOne (session R) ops m order ∧ Q.todo i = b :: bs ∧ (∀ j, (locked R ops m sched).got j = (Q.got j).map .ok) ∧
      (locked R ops m sched).mem = (session R b Q.obj).1 ∧ r = .ok (session R b Q.obj).2 := by
  have hr := locked_refines (fun b m => whole_session R b m) ops m sched
  unfold Refines at hr
  rw [show TwoLayer.locked (fun i => (ops i).map fun b => Tr.session (b.map (replyT R))) m sched = locked R ops m sched from rfl, h] at hr
  obtain ⟨b, bs, h1, -, -, h4, h5⟩ := hr
  rw [whole_session R b] at h5
  obtain ⟨e1, e2⟩ := Prod.mk.inj h5
  exact ⟨_, b, bs, _, rfl, h1, h4, e1, e2⟩
end IRM

/-- **C121** (impulse response, one after the other). However many threads share one object, whatever calls they make in their
blocks and however they are scheduled: whenever no thread is in a block, the object, and what every call of every thread has
returned or raised, are what the blocks give one after the other, without threads, in the order in which the lock was given back;
and later this order is only continued. -/
theorem C121_impulse_response_serial (R : Registry N α) (m : IRM N α) (ops : ι → List (List (IRM.Op N α))) :
    (∀ sched more, released (IRM.locked R ops m []) sched <+: released (IRM.locked R ops m []) (sched ++ more)) ∧
    ∀ sched, (IRM.locked R ops m sched).now = none →
      (IRM.locked R ops m sched).mem =
        (oneByOne (IRM.session R) ops m (released (IRM.locked R ops m []) sched)).obj ∧ ∀ i,
      (IRM.locked R ops m sched).got i =
        ((oneByOne (IRM.session R) ops m (released (IRM.locked R ops m []) sched)).got i).map .ok ∧
      (IRM.locked R ops m sched).todo i =
        ((oneByOne (IRM.session R) ops m (released (IRM.locked R ops m []) sched)).todo i).map
          fun b => Tr.session (b.map (IRM.replyT R)) := by
  refine ⟨fun sched more => by rw [released_append]; exact List.prefix_append _ _, fun sched h => ?_⟩
  have hr := locked_refines (fun b m => IRM.whole_session R b m) ops m sched
  unfold Refines at hr
  rw [show TwoLayer.locked (fun i => (ops i).map fun b => Tr.session (b.map (IRM.replyT R))) m sched = IRM.locked R ops m sched from rfl, h] at hr
  obtain ⟨h1, h2, h3⟩ := hr
  exact ⟨h3, fun i => ⟨h2 i, h1 i⟩⟩

/-- **C121** (impulse response, `run_scenarios`). Threads that share one object and make, in blocks, any calls but assignments of
parameters other than `delta_t`: whatever the schedule, every block that has come to its end has one result for every call, and
every `run_scenarios` in it returned or raised what it returns or raises on the object as it was at first. -/
theorem C121_impulse_response_scenarios {R : Registry N α} (D : R.Dimensional) (m : IRM N α) (ops : ι → List (List (IRM.Op N α)))
    (h : ∀ i, ∀ b ∈ ops i, ∀ op ∈ b, op.IsRunOrScenarios) (sched : List ι) (i : ι) (k : ℕ)
    (r : Except Err (List (Except Err (Option (ScmRun α))))) (hr : ((IRM.locked R ops m sched).got i)[k]? = some r) :
    ∃ b rs, (ops i)[k]? = some b ∧ r = .ok rs ∧ rs.length = b.length ∧ ∀ (j : ℕ) (dv : String) (scen : ScmRun α),
      b[j]? = some (.runScenarios dv scen) →
        rs[j]? = some ((runScenarios (IRM.variant R) R dv scen m).2.map some) := by
  have hk : ∀ i, ∀ b ∈ ops i, ∀ s, IRM.usedNoDt R (IRM.session R b s).1 = s.usedNoDt R := by
    intro i b hb s
    have hs : Tr.Keeps (IRM.usedNoDt R) (Tr.session (b.map (IRM.replyT R))) := by
      refine .session fun x hx => ?_
      obtain ⟨op, hop, rfl⟩ := List.mem_map.mp hx
      exact IRM.reply_keeps R (IRM.callT_keeps_noDt R (h i b hb op hop)) fun dv scen _ => IRM.runScenariosT_keeps R dv scen
    have := hs.whole s
    rw [IRM.whole_session] at this
    exact this
  have hg : ∃ order, ∀ j, (IRM.locked R ops m sched).got j = ((oneByOne (IRM.session R) ops m order).got j).map .ok := by
    have hf := locked_refines (fun b m => IRM.whole_session R b m) ops m sched
    unfold Refines at hf
    rw [show TwoLayer.locked (fun i => (ops i).map fun b => Tr.session (b.map (IRM.replyT R))) m sched = IRM.locked R ops m sched from rfl] at hf
    rcases hn : (IRM.locked R ops m sched).now with _ | ⟨j, x⟩
    · rw [hn] at hf
      exact ⟨_, hf.2.1⟩
    · rw [hn] at hf
      obtain ⟨b, bs, -, -, -, h4, -⟩ := hf
      exact ⟨_, h4⟩
  obtain ⟨order, hg⟩ := hg
  rw [hg i, List.getElem?_map] at hr
  rcases hq : ((oneByOne (IRM.session R) ops m order).got i)[k]? with _ | rs
  · rw [hq] at hr; cases hr
  rw [hq] at hr
  obtain ⟨b, s, h1, h2, h3⟩ := ((oneByOne_inv ops hk m order).2 i).2 k rs hq
  have hb : b ∈ ops i := List.mem_of_getElem? h1
  refine ⟨b, rs, h1, (Option.some.inj hr).symm, ?_, fun j dv scen hj => ?_⟩
  · rw [h3]; exact IRM.session_length R b s
  rw [h3]
  obtain ⟨s', h4, h5⟩ := IRM.session_get R (P := fun op => op ∈ b) (f := IRM.usedNoDt R) (fun op hop s => by
    have := (IRM.reply_keeps R (IRM.callT_keeps_noDt R (h i b hb op hop)) fun dv scen _ => IRM.runScenariosT_keeps R dv scen).whole s
    rw [IRM.whole_reply] at this
    exact this) (fun _ ho => ho) s j hj
  rw [h5]
  have : IRM.reply R (.runScenarios dv scen) s' =
      (do let out ← runScenarios (IRM.variant R) R dv scen; pure (some out) : Py (IRM N α) _) s' := rfl
  rw [this, Py.bind_apply, ← IRM.runScenarios_used D (h4.trans h2) dv scen]
  rcases runScenarios (IRM.variant R) R dv scen s' with ⟨s'', _ | _⟩ <;> rfl

/-- **C121** (impulse response, `set_drivers`, `reset`, `run`). Threads that share one object and make, in blocks, calls of
`set_drivers`, `reset`, `step`, `run`, assignments of `erf`: a thread that has `set_drivers`, `reset`, `run` behind it and has not
given the lock back finds the object exactly as these calls leave the object as it was at first, no other thread ever having
touched it. -/
theorem C121_impulse_response_run (R : Registry N α) (m : IRM N α) (ops : ι → List (List (IRM.Op N α)))
    (h : ∀ i, ∀ b ∈ ops i, ∀ op ∈ b, op.IsRun) (sched : List ι) (i : ι) (d : DArg N α) (m' : IRM N α)
    (hb : (ops i)[((IRM.locked R ops m sched).got i).length]? = some [.setDrivers d, .reset, .run])
    (hs : IRM.simulate R d m = (m', .ok ())) (r : Except Err (List (Except Err (Option (ScmRun α)))))
    (hr : (IRM.locked R ops m sched).now = some (i, .done r)) :
    r = .ok [.ok none, .ok none, .ok none] ∧ (IRM.locked R ops m sched).mem = m' := by
  obtain ⟨Q, b, bs, order, hQ, h1, h2, h3, h4⟩ := IRM.locked_done R ops m sched hr
  have hk : ∀ i, ∀ b ∈ ops i, ∀ s, IRM.used (IRM.session R b s).1 = s.used := by
    intro i b hb s
    have hs : Tr.Keeps IRM.used (Tr.session (b.map (IRM.replyT R))) := by
      refine .session fun x hx => ?_
      obtain ⟨op, hop, rfl⟩ := List.mem_map.mp hx
      exact IRM.reply_keeps R (IRM.callT_keeps R (h i b hb op hop)) fun dv scen he => by
        have := h i b hb op hop; rw [he] at this; exact this.elim
    have := hs.whole s
    rw [IRM.whole_session] at this
    exact this
  obtain ⟨e1, e2⟩ := oneByOne_inv ops hk m order
  rw [← hQ] at e1 e2
  obtain ⟨e3, -⟩ := e2 i
  have hlen : ((IRM.locked R ops m sched).got i).length = (Q.got i).length := by rw [h2, List.length_map]
  have hbb : b = [.setDrivers d, .reset, .run] := by
    rw [hlen, e3, h1, List.getElem?_append_right (by simp)] at hb
    have hl : (List.take (Q.got i).length (ops i)).length = (Q.got i).length := by
      have h5 := congrArg List.length e3
      rw [h1] at h5
      simp at h5 ⊢
      omega
    rw [hl] at hb
    simpa using hb
  obtain ⟨u1, u2⟩ := IRM.simulate_used R e1 d
  have hok : (IRM.simulate R d Q.obj).2 = .ok () := by rw [u1, hs]
  have hc : IRM.calls R [.setDrivers d, .reset, .run] Q.obj = (m', .ok ()) := by
    have hm : (IRM.simulate R d Q.obj).1 = m' := by rw [u2 hok, hs]
    have : IRM.simulate R d Q.obj = (m', .ok ()) := Prod.ext hm hok
    rw [← this]
    simp only [IRM.calls, IRM.simulate, IRM.call, Py.bind_apply]
    rcases IRM.setDrivers R d Q.obj with ⟨s, e | _⟩
    · rfl
    dsimp only
    rcases IRM.reset s with ⟨s, e | _⟩
    · rfl
    dsimp only
    rcases IRM.run R s with ⟨s, e | _⟩ <;> rfl
  have hS := IRM.session_calls R (ops := [.setDrivers d, .reset, .run]) (by
    intro op hop dv scen
    simp only [List.mem_cons, List.not_mem_nil, or_false] at hop
    rcases hop with rfl | rfl | rfl <;> intro hh <;> cases hh) hc
  rw [hbb, hS] at h3 h4
  exact ⟨h4, h3⟩

/-- **C121** (impulse response, all parameters). Threads that share one object, whatever they do in their blocks, assignments of
parameters included: a thread that has assigned all parameters and called `set_drivers`, `reset`, `run` in one block and has not
given the lock back finds the object exactly as these three calls leave a new object with these parameters. -/
theorem C121_impulse_response_parameters {R : Registry N α} (m : IRM N α) (ops : ι → List (List (IRM.Op N α)))
    (sched : List ι) (i : ι) (d : DArg N α) {x : IRM.Args N α} {m₀ m' : IRM N α} (hx : IRM.init R x = .ok m₀)
    (hb : (ops i)[((IRM.locked R ops m sched).got i).length]? = some
      [.setQ1 x.q1, .setQ2 x.q2, .setD1 x.d1, .setD2 x.d2, .setEfficacy x.efficacy, .setDeltaT x.deltaT, .setDrivers d, .reset, .run])
    (hs : IRM.simulate R d m₀ = (m', .ok ())) (r : Except Err (List (Except Err (Option (ScmRun α)))))
    (hr : (IRM.locked R ops m sched).now = some (i, .done r)) :
    r = .ok (List.replicate 9 (.ok none)) ∧ (IRM.locked R ops m sched).mem = m' := by
  obtain ⟨Q, b, bs, order, hQ, h1, h2, h3, h4⟩ := IRM.locked_done R ops m sched hr
  obtain ⟨-, e2⟩ := oneByOne_inv (session := IRM.session R) (f := fun _ => ()) ops (fun _ _ _ _ => rfl) m order
  rw [← hQ] at e2
  obtain ⟨e3, -⟩ := e2 i
  have hlen : ((IRM.locked R ops m sched).got i).length = (Q.got i).length := by rw [h2, List.length_map]
  have hbb : b = [.setQ1 x.q1, .setQ2 x.q2, .setD1 x.d1, .setD2 x.d2, .setEfficacy x.efficacy, .setDeltaT x.deltaT, .setDrivers d, .reset, .run] := by
    rw [hlen, e3, h1, List.getElem?_append_right (by simp)] at hb
    have hl : (List.take (Q.got i).length (ops i)).length = (Q.got i).length := by
      have h5 := congrArg List.length e3
      rw [h1] at h5
      simp at h5 ⊢
      omega
    rw [hl] at hb
    simpa using hb
  obtain ⟨m1, a1, a2⟩ := IRM.setAll_ok hx Q.obj
  obtain ⟨u1, u2⟩ := IRM.simulate_used R a2 d
  have hok : (IRM.simulate R d m1).2 = .ok () := by rw [u1, hs]
  have hm : IRM.simulate R d m1 = (m', .ok ()) := Prod.ext (by rw [u2 hok, hs]) hok
  have hc : IRM.calls R b Q.obj = (m', .ok ()) := by
    have e : ∀ s, IRM.calls R b s = (do IRM.setAll R x; IRM.simulate R d : Py (IRM N α) Unit) s := by
      intro s
      rw [hbb]
      simp only [IRM.calls, IRM.simulate, IRM.setAll, IRM.call, Py.bind_apply]
      rcases IRM.setQ1 R x.q1 s with ⟨s, e | _⟩
      · rfl
      dsimp only
      rcases IRM.setQ2 R x.q2 s with ⟨s, e | _⟩
      · rfl
      dsimp only
      rcases IRM.setD1 R x.d1 s with ⟨s, e | _⟩
      · rfl
      dsimp only
      rcases IRM.setD2 R x.d2 s with ⟨s, e | _⟩
      · rfl
      dsimp only
      rcases IRM.setEfficacy R x.efficacy s with ⟨s, e | _⟩
      · rfl
      dsimp only
      rcases IRM.setDeltaT R x.deltaT s with ⟨s, e | _⟩
      · rfl
      dsimp only
      rcases IRM.setDrivers R d s with ⟨s, e | _⟩
      · rfl
      dsimp only
      rcases IRM.reset s with ⟨s, e | _⟩
      · rfl
      dsimp only
      rcases IRM.run R s with ⟨s, e | _⟩ <;> rfl
    rw [e, Py.bind_apply, a1]
    exact hm
  have hS := IRM.session_calls R (ops := b) (by
    intro op hop dv scen
    rw [hbb] at hop
    simp only [List.mem_cons, List.not_mem_nil, or_false] at hop
    rcases hop with rfl | rfl | rfl | rfl | rfl | rfl | rfl | rfl | rfl <;> intro hh <;> cases hh) hc
  rw [hS] at h3 h4
  rw [hbb] at h4
  exact ⟨h4, h3⟩

/-- Concrete case: the default object, any number of threads that each have `set_drivers`, `reset`, `run` with `[1, 2, 3] W/m²` in a
block, twice: any of them gets to where `C121_impulse_response_run` finds it, and then, whatever turns came before and however
many threads there are, the simulation has gone through. -/
example (i : ι) : ∃ m m' : IRM U0 XR, IRM.init U0.reg (IRM.defaultArgs U0.reg) = .ok m ∧
    IRM.simulate U0.reg (exDrivers U0.reg) m = (m', .ok ()) ∧ ∃ sched : List ι, ∃ r,
    (IRM.locked U0.reg (fun _ => List.replicate 2 [.setDrivers (exDrivers U0.reg), .reset, .run]) m sched).now = some (i, .done r) ∧
    r = .ok [.ok none, .ok none, .ok none] ∧
    (IRM.locked U0.reg (fun _ => List.replicate 2 [.setDrivers (exDrivers U0.reg), .reset, .run]) m sched).mem = m' := by
  obtain ⟨m, h1, h2, hq, -⟩ := IRM.default_exists U0.lawful
  obtain ⟨m', hm', -⟩ := IRM.produces_sol U0.lawful (IRM.init_coherent _ h1) h2 IRPar.default_ok (κ := 1)
    (by rw [hq]; exact isNum_self _ _) (by norm_num) (exDrivers_forcing (R := U0.reg)) (Or.inl (Or.inl rfl))
  have e : (IRM.locked (ι := ι) U0.reg (fun _ => List.replicate 2 [.setDrivers (exDrivers U0.reg), .reset, .run]) m [i]).now =
      some (i, Tr.session ([.setDrivers (exDrivers U0.reg), .reset, .run].map (IRM.replyT U0.reg))) := rfl
  obtain ⟨n, r, h3, h4⟩ := reach_done e
  have h5 : (IRM.locked (ι := ι) U0.reg (fun _ => List.replicate 2 [.setDrivers (exDrivers U0.reg), .reset, .run]) m ([i] ++ List.replicate n i)).now =
      some (i, .done r) := by
    unfold IRM.locked at h3 ⊢
    rw [locked_append]; exact h3
  have h6 : (IRM.locked (ι := ι) U0.reg (fun _ => List.replicate 2 [.setDrivers (exDrivers U0.reg), .reset, .run]) m ([i] ++ List.replicate n i)).got i = [] := by
    unfold IRM.locked at h4 ⊢
    rw [locked_append, h4]; rfl
  refine ⟨m, m', h1, hm', _, r, h5, ?_⟩
  refine C121_impulse_response_run U0.reg m _ (fun j b hb op hop => ?_) _ i _ m' ?_ hm' r h5
  · obtain rfl := List.eq_of_mem_replicate hb
    simp only [List.mem_cons, List.not_mem_nil, or_false] at hop
    rcases hop with rfl | rfl | rfl <;> exact trivial
  · rw [h6]; rfl

end TwoLayer
