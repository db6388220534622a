import Verif.Spec.Threads
import Verif.Proofs.InterruptAgain

/-! # Threads -/

set_option linter.unusedSimpArgs false
set_option linter.unusedSectionVars false

namespace TwoLayer

namespace Tr
variable {σ β γ κ ι : Type}

theorem exec_attempt (x : Tr σ β) (s : σ) : (attempt x).exec s = ((x.exec s).1, (x.exec s).2.1, .ok (x.exec s).2.2) := by
  induction x generalizing s with
  | done r => rfl
  | read k ih => exact ih s s
  | write f k ih => simp only [attempt, exec, ih]

theorem Keeps.attempt {f : σ → κ} {x : Tr σ β} (h : Keeps f x) : Keeps f (attempt x) := by
  induction x with
  | done r => trivial
  | read k ih => exact fun s => ih s (h s)
  | write w k ih => exact ⟨h.1, ih h.2⟩

theorem Keeps.session {f : σ → κ} {xs : List (Tr σ β)} (h : ∀ x ∈ xs, Keeps f x) : Keeps f (session xs) := by
  induction xs with
  | nil => trivial
  | cons x xs ih =>
    exact .bind (h x (by simp)).attempt fun _ => .bind (ih fun y hy => h y (by simp [hy])) fun _ => .pure _

theorem Keeps.turn {f : σ → κ} {x : Tr σ β} (h : Keeps f x) (s : σ) :
    Keeps f (turn (x, s)).1 ∧ f (turn (x, s)).2 = f s := by
  cases x with
  | done r => exact ⟨trivial, rfl⟩
  | read k => exact ⟨h s, rfl⟩
  | write w k => exact ⟨h.2, h.1 s⟩

theorem Keeps.threads [DecidableEq ι] {f : σ → κ} (sched : List ι) {x : ι → Tr σ β} (h : ∀ i, Keeps f (x i)) (s : σ) :
    f (threads (x, s) sched).2 = f s := by
  induction sched generalizing x s with
  | nil => rfl
  | cons i rest ih =>
    obtain ⟨h1, h2⟩ := (h i).turn s
    refine (ih (x := Function.update x i (Tr.turn (x i, s)).1) (fun j => ?_) (Tr.turn (x i, s)).2).trans h2
    by_cases hj : j = i
    · subst hj; rw [Function.update_self]; exact h1
    · rw [Function.update_of_ne hj]; exact h j

theorem turn_whole (c : Tr σ β × σ) : (turn c).1.whole (turn c).2 = c.1.whole c.2 := by
  obtain ⟨x, s⟩ := c
  cases x <;> rfl

theorem turns_whole (n : Nat) (c : Tr σ β × σ) : (turn^[n] c).1.whole (turn^[n] c).2 = c.1.whole c.2 := by
  induction n generalizing c with
  | zero => rfl
  | succ n ih => rw [Function.iterate_succ_apply, ih, turn_whole]

theorem turns_done (r : Except Err β) (s : σ) (n : Nat) : turn^[n] (done r, s) = (done r, s) := by
  induction n with
  | zero => rfl
  | succ n ih => rw [Function.iterate_succ_apply]; exact ih

theorem turns_end (x : Tr σ β) (s : σ) : ∃ n, ∀ k, n ≤ k → turn^[k] (x, s) = (done (x.whole s).2, (x.whole s).1) := by
  induction x generalizing s with
  | done r => exact ⟨0, fun k _ => turns_done r s k⟩
  | read k ih =>
    obtain ⟨n, hn⟩ := ih s s
    refine ⟨n + 1, fun j hj => ?_⟩
    obtain ⟨j, rfl⟩ : ∃ i, j = i + 1 := ⟨j - 1, by omega⟩
    rw [Function.iterate_succ_apply]
    exact hn j (by omega)
  | write f k ih =>
    obtain ⟨n, hn⟩ := ih (f s)
    refine ⟨n + 1, fun j hj => ?_⟩
    obtain ⟨j, rfl⟩ : ∃ i, j = i + 1 := ⟨j - 1, by omega⟩
    rw [Function.iterate_succ_apply]
    exact hn j (by omega)

/-- threads on separate objects -/
theorem threads_separate [DecidableEq ι] {τ : ι → Type} (sched : List ι) (x : ∀ i, Tr (τ i) β) (s : ∀ i, τ i) :
    threads (fun i => onCore (fun s : ∀ i, τ i => s i) (fun s v => Function.update s i v) (x i), s) sched =
      (fun i => onCore (fun s : ∀ i, τ i => s i) (fun s v => Function.update s i v) (turn^[sched.count i] (x i, s i)).1,
       fun i => (turn^[sched.count i] (x i, s i)).2) := by
  induction sched generalizing x s with
  | nil => rfl
  | cons i rest ih =>
    have hstep : turn (onCore (fun s : ∀ i, τ i => s i) (fun s v => Function.update s i v) (x i), s) =
        (onCore (fun s : ∀ i, τ i => s i) (fun s v => Function.update s i v) (turn (x i, s i)).1,
          Function.update s i (turn (x i, s i)).2) := by
      cases x i with
      | done r => simp only [onCore, turn, Function.update_eq_self]
      | read k => simp only [onCore, turn, Function.update_eq_self]
      | write w k => rfl
    have hx : Function.update (fun i => onCore (fun s : ∀ i, τ i => s i) (fun s v => Function.update s i v) (x i)) i
        (onCore (fun s : ∀ i, τ i => s i) (fun s v => Function.update s i v) (turn (x i, s i)).1) =
        fun j => onCore (fun s : ∀ i, τ i => s j) (fun s v => Function.update s j v)
          ((Function.update x i (turn (x i, s i)).1) j) := by
      funext j
      by_cases hj : j = i
      · subst hj; simp only [Function.update_self]
      · simp only [Function.update_of_ne hj]
    have h := ih (Function.update x i (turn (x i, s i)).1) (Function.update s i (turn (x i, s i)).2)
    have hpair : ∀ j, turn^[rest.count j] (Function.update x i (turn (x i, s i)).1 j, Function.update s i (turn (x i, s i)).2 j) =
        turn^[(i :: rest).count j] (x j, s j) := by
      intro j
      by_cases hj : j = i
      · subst hj
        rw [Function.update_self, Function.update_self, List.count_cons_self, Function.iterate_succ_apply]
      · rw [Function.update_of_ne hj, Function.update_of_ne hj, List.count_cons_of_ne (Ne.symm hj)]
    simp only [hpair] at h
    rw [← h, ← hx]
    show threads (Function.update _ i (turn (onCore _ _ (x i), s)).1, (turn (onCore _ _ (x i), s)).2) rest = _
    rw [hstep]

theorem threads_replicate [DecidableEq ι] (x : ι → Tr σ β) (s : σ) (i : ι) (n : Nat) :
    Tr.threads (x, s) (List.replicate n i) = (Function.update x i (turn^[n] (x i, s)).1, (turn^[n] (x i, s)).2) := by
  induction n generalizing x s with
  | zero => simp [threads]
  | succ n ih =>
    show threads (Function.update x i (turn (x i, s)).1, (turn (x i, s)).2) (List.replicate n i) = _
    rw [ih, Function.update_self, Function.update_idem, Function.iterate_succ_apply]

theorem threads_append [DecidableEq ι] (c : (ι → Tr σ β) × σ) (a b : List ι) : threads c (a ++ b) = threads (threads c a) b :=
  List.foldl_append ..

theorem turn_write (f : σ → σ) (k : Tr σ β) (s : σ) : turn (write f k, s) = (k, f s) := rfl

/-- two threads, both about to make the same assignment -/
theorem threads_two {x k : Tr σ β} {f : σ → σ} {s s1 s2 : σ} {r1 r2 : Except Err β} (hx : turn (x, s) = (write f k, s))
    (hf : f (f s) = f s) (h1 : k.whole (f s) = (s1, r1)) (h2 : k.whole s1 = (s2, r2)) :
    ∃ sched : List Bool, threads (fun _ => x, s) sched = (fun b => done (if b then r2 else r1), s2) := by
  obtain ⟨n1, e1⟩ := turns_end k (f s)
  obtain ⟨n2, e2⟩ := turns_end k s1
  have e1 := e1 n1 le_rfl
  have e2 := e2 n2 le_rfl
  rw [h1] at e1
  rw [h2] at e2
  have h4 : threads (fun _ : Bool => x, s) [false, true, false, true] = (fun _ => k, f s) := by
    refine Prod.ext (funext fun b => ?_) ?_
    · cases b <;> simp [threads, hx, Function.update, turn_write, hf]
    · simp [threads, hx, Function.update, turn_write, hf]
  refine ⟨[false, true, false, true] ++ (List.replicate n1 false ++ List.replicate n2 true), ?_⟩
  rw [threads_append, h4, threads_append, threads_replicate (fun _ => k) (f s) false n1, e1, threads_replicate]
  simp only
  rw [Function.update_of_ne (by decide), e2]
  refine Prod.ext (funext fun b => ?_) rfl
  cases b <;> rfl

theorem bind_read (k : σ → Tr σ β) (f : β → Tr σ γ) : (read k >>= f) = read fun s => k s >>= f := rfl
theorem bind_write (g : σ → σ) (k : Tr σ β) (f : β → Tr σ γ) : (write g k >>= f) = write g (k >>= f) := rfl
theorem bind_done (a : β) (f : β → Tr σ γ) : (done (.ok a) >>= f) = f a := rfl
theorem bind_error (e : Err) (f : β → Tr σ γ) : (done (.error e) >>= f) = done (.error e) := rfl
theorem bind_assoc {δ} (x : Tr σ β) (f : β → Tr σ γ) (g : γ → Tr σ δ) : (x >>= f >>= g) = (x >>= fun a => f a >>= g) := by
  induction x with
  | done r => cases r <;> rfl
  | read k ih => simp only [bind_read, ih]
  | write w k ih => simp only [bind_write, ih]
end Tr

variable {N α : Type} [Fintype N] [DecidableEq N] [Arith α] [DecidableEq α] (R : Registry N α)

theorem whole_session {σ β : Type} (x : Tr σ β) (xs : List (Tr σ β)) (s : σ) :
    (Tr.session (x :: xs)).whole s = (((Tr.session xs).whole (x.whole s).1).1,
      match ((Tr.session xs).whole (x.whole s).1).2 with
      | .ok rs => .ok ((x.whole s).2 :: rs)
      | .error e => .error e) := by
  simp only [Tr.session, Tr.whole_bind, Py.bind_apply, Tr.whole_pure]
  have : (Tr.attempt x).whole s = ((x.whole s).1, .ok (x.whole s).2) := by
    show ((Tr.attempt x).exec s).2 = _
    rw [Tr.exec_attempt]; rfl
  rw [this]
  simp only
  rcases (Tr.session xs).whole (x.whole s).1 with ⟨s', _ | _⟩ <;> rfl

namespace TLM
theorem whole_reply (op : Op N α) : (replyT R op).whole = reply R op := by
  cases op <;> first
    | (simp only [replyT, reply, Tr.whole_bind, Tr.whole_pure, whole_call]; done)
    | simp only [replyT, reply, Tr.whole_bind, Tr.whole_pure, whole_runScenarios, whole_variant]

theorem whole_session (ops : List (Op N α)) (m : TLM N α) :
    (Tr.session (ops.map (replyT R))).whole m = ((session R ops m).1, .ok (session R ops m).2) := by
  induction ops generalizing m with
  | nil => rfl
  | cons op ops ih => rw [List.map_cons, TwoLayer.whole_session, whole_reply, ih]; rfl

theorem reply_keeps {κ : Type} {f : TLM N α → κ} {op : Op N α} (h : Tr.Keeps f (callT R op))
    (hs : ∀ dv scen, op = .runScenarios dv scen → Tr.Keeps f (runScenariosT (TLM.tvariant R) R dv scen)) :
    Tr.Keeps f (replyT R op) := by
  cases op <;> first
    | exact .bind h fun _ => .pure _
    | exact .bind (hs _ _ rfl) fun _ => .pure _

theorem threads_keeps {κ ι : Type} [DecidableEq ι] {f : TLM N α → κ} {ops : ι → List (Op N α)}
    (h : ∀ i, ∀ op ∈ ops i, Tr.Keeps f (replyT R op)) (m : TLM N α) (sched : List ι) :
    f (Tr.threads (fun i => Tr.session ((ops i).map (replyT R)), m) sched).2 = f m := by
  refine Tr.Keeps.threads sched (fun i => .session fun x hx => ?_) m
  obtain ⟨op, hop, rfl⟩ := List.mem_map.mp hx
  exact h i op hop
end TLM

namespace IRM
theorem whole_reply (op : Op N α) : (replyT R op).whole = reply R op := by
  cases op <;> first
    | (simp only [replyT, reply, Tr.whole_bind, Tr.whole_pure, whole_call]; done)
    | simp only [replyT, reply, Tr.whole_bind, Tr.whole_pure, whole_runScenarios, whole_variant]

theorem whole_session (ops : List (Op N α)) (m : IRM N α) :
    (Tr.session (ops.map (replyT R))).whole m = ((session R ops m).1, .ok (session R ops m).2) := by
  induction ops generalizing m with
  | nil => rfl
  | cons op ops ih => rw [List.map_cons, TwoLayer.whole_session, whole_reply, ih]; rfl

theorem reply_keeps {κ : Type} {f : IRM N α → κ} {op : Op N α} (h : Tr.Keeps f (callT R op))
    (hs : ∀ dv scen, op = .runScenarios dv scen → Tr.Keeps f (runScenariosT (IRM.tvariant R) R dv scen)) :
    Tr.Keeps f (replyT R op) := by
  cases op <;> first
    | exact .bind h fun _ => .pure _
    | exact .bind (hs _ _ rfl) fun _ => .pure _

theorem threads_keeps {κ ι : Type} [DecidableEq ι] {f : IRM N α → κ} {ops : ι → List (Op N α)}
    (h : ∀ i, ∀ op ∈ ops i, Tr.Keeps f (replyT R op)) (m : IRM N α) (sched : List ι) :
    f (Tr.threads (fun i => Tr.session ((ops i).map (replyT R)), m) sched).2 = f m := by
  refine Tr.Keeps.threads sched (fun i => .session fun x hx => ?_) m
  obtain ⟨op, hop, rfl⟩ := List.mem_map.mp hx
  exact h i op hop
end IRM

theorem Kind.whole_thread (c : Kind) (ops : List (c.Op N α)) (m : c.Obj N α) :
    (c.thread R ops).whole m = ((c.session R ops m).1, .ok (c.session R ops m).2) := by
  cases c with
  | twoLayer => exact TLM.whole_session R ops m
  | impulseResponse => exact IRM.whole_session R ops m

namespace TLM
/-- what is left of `step` once the index is set -/
def restT : Tr (TLM N α) (Option (ScmRun α)) :=
  Tr.get >>= fun m => (if m.idx = some 0 then firstT else nextT) >>= fun _ => pure none

theorem step_turn (R : Registry N α) (m : TLM N α) (h0 : m.idx = none) :
    Tr.turn (Tr.session [replyT R (.step : Op N α)], m) = (.write (fun m => { m with idx := some 0 }) (Tr.session [restT]), m) := by
  have hx : replyT R (.step : Op N α) = .read fun m => (if m.idx = none then Tr.write (fun m => { m with idx := some 0 }) restT
      else do let i := (← Tr.get).idx; Tr.assign fun m => { m with idx := i.map (· + 1) }; restT) := by
    simp only [replyT, callT, stepT, countT, Tr.get, Tr.bind_assoc, Tr.bind_read, Tr.bind_done]
    congr 1; funext m
    split
    · simp only [Tr.assign, Tr.bind_write, Tr.bind_done, Tr.bind_read, restT, Tr.get]
    · simp only [Tr.assign, Tr.bind_write, Tr.bind_done, Tr.bind_read, restT, Tr.get]
  rw [hx]
  simp only [Tr.session, Tr.attempt, Tr.bind_read, Tr.turn, h0, if_true, Tr.bind_write]

theorem firstT_whole (m : TLM N α) (h0 : m.idx = some 0) (h1 : m.tu ≠ []) (h2 : m.tl ≠ []) (h3 : m.rndt ≠ []) :
    (firstT : Tr (TLM N α) Unit).whole m = ({ m with tu := m.tu.set 0 (Arith.dec 0 1), tl := m.tl.set 0 (Arith.dec 0 1), rndt := m.rndt.set 0 (Arith.dec 0 1) }, .ok ()) := by
  have p1 := List.length_pos_iff.mpr h1
  have p2 := List.length_pos_iff.mpr h2
  have p3 := List.length_pos_iff.mpr h3
  simp only [firstT, Tr.whole_bind, Tr.whole_get, Py.get_bind_apply, h0, if_true, Tr.whole_lift, Tr.whole_assign, Tr.whole_pure, Py.lift_bind_apply, Py.modify_bind_apply,
      Py.modify_apply, onOk_setAt, onOk_ok, asIndex, p1, p2, p3]

theorem restT_whole (m : TLM N α) (h0 : m.idx = some 0) (h1 : m.tu ≠ []) (h2 : m.tl ≠ []) (h3 : m.rndt ≠ []) :
    (restT : Tr (TLM N α) (Option (ScmRun α))).whole m = ({ m with tu := m.tu.set 0 (Arith.dec 0 1), tl := m.tl.set 0 (Arith.dec 0 1), rndt := m.rndt.set 0 (Arith.dec 0 1) }, .ok none) := by
  simp only [restT, Tr.whole_bind, Tr.whole_get, Py.get_apply, h0, if_true, Py.bind_apply, firstT_whole m h0 h1 h2 h3]
  rfl

theorem step_twice (R : Registry N α) (m : TLM N α) (h0 : m.idx = none) (h1 : m.tu ≠ []) (h2 : m.tl ≠ []) (h3 : m.rndt ≠ []) :
    ∃ sched : List Bool, Tr.threads (TLM.shared R fun _ => [.step], m) sched = (fun _ => .done (.ok [.ok none]), (call R .step m).1) := by
  have p1 := List.length_pos_iff.mpr h1
  have p2 := List.length_pos_iff.mpr h2
  have p3 := List.length_pos_iff.mpr h3
  have hc : call R .step m = ({ m with idx := some 0, tu := m.tu.set 0 (Arith.dec 0 1), tl := m.tl.set 0 (Arith.dec 0 1), rndt := m.rndt.set 0 (Arith.dec 0 1) }, .ok ()) := by
    simp only [call, step, h0, nextIdx, Py.get_bind_apply, Py.modify_bind_apply, Py.lift_bind_apply, onOk_setAt, p1, p2, p3, if_true, Py.modify_apply]
  have hw : ∀ m : TLM N α, m.idx = some 0 → m.tu ≠ [] → m.tl ≠ [] → m.rndt ≠ [] → (Tr.session [(restT : Tr (TLM N α) (Option (ScmRun α)))]).whole m = 
     ({ m with tu := m.tu.set 0 (Arith.dec 0 1), tl := m.tl.set 0 (Arith.dec 0 1), rndt := m.rndt.set 0 (Arith.dec 0 1) }, .ok [.ok none]) := by
    intro m h0 h1 h2 h3
    rw [TwoLayer.whole_session, restT_whole m h0 h1 h2 h3]; rfl
  rw [hc]
  obtain ⟨sched, h⟩ := Tr.threads_two (step_turn R m h0) rfl (hw { m with idx := some 0 } rfl h1 h2 h3)
    (hw _ rfl (by simpa using h1) (by simpa using h2) (by simpa using h3))
  refine ⟨sched, h.trans ?_⟩
  refine Prod.ext (funext fun b => by simp) ?_
  simp only [List.set_set]

theorem step_idx (m : TLM N α) : (step m).1.idx = some (nextIdx m.idx) := by
  simp only [step, Py.get_bind_apply, Py.modify_bind_apply]
  cases nextIdx m.idx with
  | zero =>
    simp only [Py.lift_bind_apply, onOk_setAt, Py.modify_bind_apply, Py.modify_apply]
    repeat (first | rfl | split)
  | succ j =>
    simp only [Py.lift_bind_apply, onOk, onOk_setAt, Py.modify_bind_apply, Py.modify_apply, Py.get_bind_apply]
    repeat (first | rfl | split)
end TLM

namespace IRM
/-- what is left of `step` once the index is set -/
def restT (R : Registry N α) : Tr (IRM N α) (Option (ScmRun α)) :=
  Tr.get >>= fun m => (if m.idx = some 0 then firstT else nextT R) >>= fun _ => pure none

theorem step_turn (R : Registry N α) (m : IRM N α) (h0 : m.idx = none) :
    Tr.turn (Tr.session [replyT R (.step : Op N α)], m) = (.write (fun m => { m with idx := some 0 }) (Tr.session [restT R]), m) := by
  have hx : replyT R (.step : Op N α) = .read fun m => (if m.idx = none then Tr.write (fun m => { m with idx := some 0 }) (restT R)
      else do let i := (← Tr.get).idx; Tr.assign fun m => { m with idx := i.map (· + 1) }; restT R) := by
    simp only [replyT, callT, stepT, countT, Tr.get, Tr.bind_assoc, Tr.bind_read, Tr.bind_done]
    congr 1; funext m
    split
    · simp only [Tr.assign, Tr.bind_write, Tr.bind_done, Tr.bind_read, restT, Tr.get]
    · simp only [Tr.assign, Tr.bind_write, Tr.bind_done, Tr.bind_read, restT, Tr.get]
  rw [hx]
  simp only [Tr.session, Tr.attempt, Tr.bind_read, Tr.turn, h0, if_true, Tr.bind_write]

theorem firstT_whole (m : IRM N α) (h0 : m.idx = some 0) (h1 : m.t1 ≠ []) (h2 : m.t2 ≠ []) (h3 : m.rndt ≠ []) :
    (firstT : Tr (IRM N α) Unit).whole m = ({ m with t1 := m.t1.set 0 (Arith.dec 0 1), t2 := m.t2.set 0 (Arith.dec 0 1), rndt := m.rndt.set 0 (Arith.dec 0 1) }, .ok ()) := by
  have p1 := List.length_pos_iff.mpr h1
  have p2 := List.length_pos_iff.mpr h2
  have p3 := List.length_pos_iff.mpr h3
  simp only [firstT, Tr.whole_bind, Tr.whole_get, Py.get_bind_apply, h0, if_true, Tr.whole_lift, Tr.whole_assign, Tr.whole_pure, Py.lift_bind_apply, Py.modify_bind_apply,
      Py.modify_apply, onOk_setAt, onOk_ok, asIndex, p1, p2, p3]

theorem restT_whole (R : Registry N α) (m : IRM N α) (h0 : m.idx = some 0) (h1 : m.t1 ≠ []) (h2 : m.t2 ≠ []) (h3 : m.rndt ≠ []) :
    (restT R : Tr (IRM N α) (Option (ScmRun α))).whole m = ({ m with t1 := m.t1.set 0 (Arith.dec 0 1), t2 := m.t2.set 0 (Arith.dec 0 1), rndt := m.rndt.set 0 (Arith.dec 0 1) }, .ok none) := by
  simp only [restT, Tr.whole_bind, Tr.whole_get, Py.get_apply, h0, if_true, Py.bind_apply, firstT_whole m h0 h1 h2 h3]
  rfl

theorem step_twice (R : Registry N α) (m : IRM N α) (h0 : m.idx = none) (h1 : m.t1 ≠ []) (h2 : m.t2 ≠ []) (h3 : m.rndt ≠ []) :
    ∃ sched : List Bool, Tr.threads (IRM.shared R fun _ => [.step], m) sched = (fun _ => .done (.ok [.ok none]), (call R .step m).1) := by
  have p1 := List.length_pos_iff.mpr h1
  have p2 := List.length_pos_iff.mpr h2
  have p3 := List.length_pos_iff.mpr h3
  have hc : call R .step m = ({ m with idx := some 0, t1 := m.t1.set 0 (Arith.dec 0 1), t2 := m.t2.set 0 (Arith.dec 0 1), rndt := m.rndt.set 0 (Arith.dec 0 1) }, .ok ()) := by
    simp only [call, step, h0, nextIdx, Py.get_bind_apply, Py.modify_bind_apply, Py.lift_bind_apply, onOk_setAt, p1, p2, p3, if_true, Py.modify_apply]
  have hw : ∀ m : IRM N α, m.idx = some 0 → m.t1 ≠ [] → m.t2 ≠ [] → m.rndt ≠ [] → (Tr.session [(restT R : Tr (IRM N α) (Option (ScmRun α)))]).whole m = 
     ({ m with t1 := m.t1.set 0 (Arith.dec 0 1), t2 := m.t2.set 0 (Arith.dec 0 1), rndt := m.rndt.set 0 (Arith.dec 0 1) }, .ok [.ok none]) := by
    intro m h0 h1 h2 h3
    rw [TwoLayer.whole_session, restT_whole R m h0 h1 h2 h3]; rfl
  rw [hc]
  obtain ⟨sched, h⟩ := Tr.threads_two (step_turn R m h0) rfl (hw { m with idx := some 0 } rfl h1 h2 h3)
    (hw _ rfl (by simpa using h1) (by simpa using h2) (by simpa using h3))
  refine ⟨sched, h.trans ?_⟩
  refine Prod.ext (funext fun b => by simp) ?_
  simp only [List.set_set]

theorem step_idx (R : Registry N α) (m : IRM N α) : (step R m).1.idx = some (nextIdx m.idx) := by
  simp only [step, Py.get_bind_apply, Py.modify_bind_apply]
  cases nextIdx m.idx with
  | zero =>
    simp only [Py.lift_bind_apply, onOk_setAt, Py.modify_bind_apply, Py.modify_apply]
    repeat (first | rfl | split)
  | succ j =>
    simp only [Py.lift_bind_apply, onOk, onOk_setAt, Py.modify_bind_apply, Py.modify_apply, Py.get_bind_apply]
    repeat (first | rfl | split)
end IRM
end TwoLayer
