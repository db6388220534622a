import Verif.Spec.Locked
import Verif.Proofs.Threads

set_option linter.unusedSimpArgs false

/-!
# Threads that take a lock: lemmas for C121
-/

namespace TwoLayer
variable {ι σ β Op Res : Type} [DecidableEq ι]

/-- the calls of a block one after the other, whole -/
def Whole (block : List Op → Tr σ (List Res)) (session : List Op → σ → σ × List Res) : Prop :=
  ∀ b s, (block b).whole s = ((session b s).1, .ok (session b s).2)

/-- what the threads have done is what is done one by one, plus what is going on -/
def Refines (block : List Op → Tr σ (List Res)) (session : List Op → σ → σ × List Res) (S : Locked ι σ (List Res))
    (Q : OneByOne ι Op Res σ) : Prop :=
  match S.now with
  | none => (∀ i, S.todo i = (Q.todo i).map block) ∧ (∀ i, S.got i = (Q.got i).map .ok) ∧ S.mem = Q.obj
  | some (i, x) => ∃ b bs, Q.todo i = b :: bs ∧ S.todo i = bs.map block ∧ (∀ j, j ≠ i → S.todo j = (Q.todo j).map block) ∧
      (∀ j, S.got j = (Q.got j).map .ok) ∧ x.whole S.mem = (block b).whole Q.obj

variable {block : List Op → Tr σ (List Res)} {session : List Op → σ → σ × List Res}

theorem whole_turn (x : Tr σ β) (s : σ) : (Tr.turn (x, s)).1.whole (Tr.turn (x, s)).2 = x.whole s := Tr.turn_whole (x, s)

theorem work_done (S : Locked ι σ β) (i : ι) (r : Except Err β) :
    S.work i (.done r) = { S with now := none, got := Function.update S.got i (S.got i ++ [r]) } := rfl

theorem work_going (S : Locked ι σ β) (i : ι) {x : Tr σ β} (h : ∀ r, x ≠ .done r) :
    S.work i x = { S with now := some (i, (Tr.turn (x, S.mem)).1), mem := (Tr.turn (x, S.mem)).2 } := by
  cases x with
  | done r => exact absurd rfl (h r)
  | read k => rfl
  | write f k => rfl

theorem turn_free {S : Locked ι σ β} (h : S.now = none) (i : ι) : S.turn i = S.take i (S.todo i) := by
  unfold Locked.turn; rw [h]

theorem turn_other {S : Locked ι σ β} {j : ι} {x : Tr σ β} (h : S.now = some (j, x)) {i : ι} (hi : j ≠ i) : S.turn i = S := by
  unfold Locked.turn; rw [h]; simp [hi]

theorem turn_own {S : Locked ι σ β} {j : ι} {x : Tr σ β} (h : S.now = some (j, x)) : S.turn j = S.work j x := by
  unfold Locked.turn; rw [h]; simp

/-- one turn: nothing is finished, or the block that was going on is -/
theorem Refines.turn (W : Whole block session) {S : Locked ι σ (List Res)} {Q : OneByOne ι Op Res σ} (h : Refines block session S Q) (i : ι) :
    (Refines block session (S.turn i) Q ∧ (S.now = none ∨ (S.turn i).now ≠ none)) ∨
      ∃ x, S.now = some (i, x) ∧ (S.turn i).now = none ∧ Refines block session (S.turn i) (Q.next session i) := by
  cases hn : S.now with
  | none =>
    left
    refine ⟨?_, .inl rfl⟩
    rw [turn_free hn]
    unfold Refines at h
    rw [hn] at h
    obtain ⟨h1, h2, h3⟩ := h
    cases hq : Q.todo i with
    | nil =>
      rw [h1 i, hq]
      show Refines block session S Q
      unfold Refines; rw [hn]
      exact ⟨h1, h2, h3⟩
    | cons b bs =>
      rw [h1 i, hq]
      show ∃ b' bs', _
      refine ⟨b, bs, hq, ?_, fun j hj => ?_, h2, ?_⟩
      · simp [Locked.take]
      · simp [Locked.take, hj, h1 j]
      · show (block b).whole S.mem = _
        rw [h3]
  | some p =>
    obtain ⟨j, x⟩ := p
    by_cases hj : j = i
    · subst hj
      rw [turn_own hn]
      unfold Refines at h
      rw [hn] at h
      obtain ⟨b, bs, h1, h2, h3, h4, h5⟩ := h
      by_cases hd : ∃ r, x = .done r
      · obtain ⟨r, rfl⟩ := hd
        right
        refine ⟨.done r, rfl, rfl, ?_⟩
        rw [work_done]
        have hw := W b Q.obj
        rw [← h5] at hw
        obtain ⟨e1, e2⟩ := Prod.mk.inj hw
        have e1 : S.mem = (session b Q.obj).1 := e1
        have e2 : r = .ok (session b Q.obj).2 := e2
        unfold OneByOne.next
        rw [h1]
        show (∀ k, S.todo k = _) ∧ (∀ k, Function.update S.got j (S.got j ++ [r]) k = _) ∧ S.mem = _
        refine ⟨fun k => ?_, fun k => ?_, e1⟩
        · by_cases hk : k = j
          · subst hk; simp [h2]
          · simp [hk, h3 k hk]
        · by_cases hk : k = j
          · subst hk; simp [h4, e2]
          · simp [hk, h4]
      · left
        have hd' : ∀ r, x ≠ .done r := fun r hr => hd ⟨r, hr⟩
        rw [work_going S j hd']
        refine ⟨?_, .inr (by simp)⟩
        exact ⟨b, bs, h1, h2, h3, h4, (whole_turn x S.mem).trans h5⟩
    · left
      rw [turn_other hn hj]
      exact ⟨h, .inr (by rw [hn]; simp)⟩

theorem Refines.turns (W : Whole block session) (sched : List ι) {S : Locked ι σ (List Res)} {Q : OneByOne ι Op Res σ}
    (h : Refines block session S Q) :
    Refines block session (sched.foldl Locked.turn S) ((released S sched).foldl (OneByOne.next session) Q) := by
  induction sched generalizing S Q with
  | nil => exact h
  | cons i sched ih =>
    rw [List.foldl_cons]
    rcases h.turn W i with ⟨h1, h2⟩ | ⟨x, h1, h2, h3⟩
    · have : released S (i :: sched) = released (S.turn i) sched := by
        rw [released]
        split
        · rename_i heq1 heq2
          rcases h2 with h2 | h2
          · rw [h2] at heq1; cases heq1
          · exact absurd heq2 h2
        · rfl
      rw [this]
      exact ih h1
    · have : released S (i :: sched) = i :: released (S.turn i) sched := by
        rw [released, h1, h2]
      rw [this, List.foldl_cons]
      exact ih h3

theorem locked_refines (W : Whole block session) (ops : ι → List (List Op)) (s : σ) (sched : List ι) :
    Refines block session (locked (fun i => (ops i).map block) s sched)
      (oneByOne session ops s (released ⟨fun i => (ops i).map block, none, fun _ => [], s⟩ sched)) :=
  Refines.turns W sched ⟨fun _ => rfl, fun _ => rfl, rfl⟩

theorem released_append (S : Locked ι σ β) (a b : List ι) :
    released S (a ++ b) = released S a ++ released (a.foldl Locked.turn S) b := by
  induction a generalizing S with
  | nil => rfl
  | cons i a ih =>
    rw [List.cons_append, released, released, List.foldl_cons]
    split
    · rw [ih]; rfl
    · exact ih _

theorem locked_append (blocks : ι → List (Tr σ β)) (s : σ) (a b : List ι) :
    locked blocks s (a ++ b) = b.foldl Locked.turn (locked blocks s a) := List.foldl_append

/-! ## one by one -/

/-- something all calls keep is kept, and every list has its blocks done from the first on -/
theorem oneByOne_inv {κ : Type} {f : σ → κ} (ops : ι → List (List Op)) (hf : ∀ i, ∀ b ∈ ops i, ∀ s, f (session b s).1 = f s) (s : σ)
    (order : List ι) :
    f (oneByOne session ops s order).obj = f s ∧ ∀ i,
      ops i = (ops i).take ((oneByOne session ops s order).got i).length ++ (oneByOne session ops s order).todo i ∧
      ∀ (k : ℕ) (r : List Res), ((oneByOne session ops s order).got i)[k]? = some r → ∃ (b : List Op) (s' : σ), (ops i)[k]? = some b ∧ f s' = f s ∧ r = (session b s').2 := by
  induction order using List.reverseRecOn with
  | nil => exact ⟨rfl, fun i => ⟨rfl, fun k r h => by simp [oneByOne] at h⟩⟩
  | append_singleton order j ih =>
    have e : oneByOne session ops s (order ++ [j]) = (oneByOne session ops s order).next session j := by
      unfold oneByOne; rw [List.foldl_append]; rfl
    rw [e]
    generalize oneByOne session ops s order = Q at ih
    obtain ⟨h1, h2⟩ := ih
    unfold OneByOne.next
    cases hq : Q.todo j with
    | nil => exact ⟨h1, h2⟩
    | cons b bs =>
      have hj := (h2 j).1
      rw [hq] at hj
      have hlen : (Q.got j).length < (ops j).length := by
        by_contra hc
        rw [List.take_of_length_le (not_lt.mp hc)] at hj
        have := congrArg List.length hj
        simp at this
      have hb : (ops j)[(Q.got j).length]? = some b := by
        rw [hj, List.getElem?_append_right (by simp)]
        simp [Nat.min_eq_left hlen.le]
      have hm : b ∈ ops j := List.mem_of_getElem? hb
      refine ⟨(hf j b hm _).trans h1, fun i => ?_⟩
      by_cases hi : i = j
      · subst hi
        simp only [Function.update_self]
        refine ⟨?_, fun k r hk => ?_⟩
        · rw [List.length_append, List.length_singleton, List.take_succ, hb]
          simpa using hj
        · rcases lt_trichotomy k (Q.got i).length with hlt | heq | hgt
          · rw [List.getElem?_append_left hlt] at hk
            exact (h2 i).2 k r hk
          · rw [heq, List.getElem?_append_right le_rfl] at hk
            simp at hk
            exact ⟨b, Q.obj, by rw [heq]; exact hb, h1, hk.symm⟩
          · rw [List.getElem?_eq_none (by simp; omega)] at hk
            cases hk
      · simp only [Function.update_of_ne hi]
        exact h2 i

/-! ## no deadlock -/

theorem turns_same {S : Locked ι σ β} {i : ι} {x : Tr σ β} (h : S.now = some (i, x)) :
    ∃ n, ((List.replicate n i).foldl Locked.turn S).now = none ∧ ((List.replicate n i).foldl Locked.turn S).todo = S.todo := by
  induction x generalizing S with
  | done r => exact ⟨1, by simp [turn_own h, work_done], by simp [turn_own h, work_done]⟩
  | read k ih =>
    have e := (turn_own h).trans (work_going S i (by intro r h; cases h))
    obtain ⟨n, h1, h2⟩ := ih S.mem (S := S.turn i) (by rw [e]; rfl)
    refine ⟨n + 1, ?_, ?_⟩ <;> rw [List.replicate_succ, List.foldl_cons]
    · exact h1
    · rw [h2, e]
  | write f k ih =>
    have e := (turn_own h).trans (work_going S i (by intro r h; cases h))
    obtain ⟨n, h1, h2⟩ := ih (S := S.turn i) (by rw [e]; rfl)
    refine ⟨n + 1, ?_, ?_⟩ <;> rw [List.replicate_succ, List.foldl_cons]
    · exact h1
    · rw [h2, e]

/-- a block comes to its end -/
theorem reach_done {S : Locked ι σ β} {i : ι} {x : Tr σ β} (h : S.now = some (i, x)) :
    ∃ n r, ((List.replicate n i).foldl Locked.turn S).now = some (i, .done r) ∧ ((List.replicate n i).foldl Locked.turn S).got = S.got := by
  induction x generalizing S with
  | done r => exact ⟨0, r, h, rfl⟩
  | read k ih =>
    have e := (turn_own h).trans (work_going S i (by intro r h; cases h))
    obtain ⟨n, r, h1, h2⟩ := ih S.mem (S := S.turn i) (by rw [e]; rfl)
    refine ⟨n + 1, r, ?_, ?_⟩ <;> rw [List.replicate_succ, List.foldl_cons]
    · exact h1
    · rw [h2, e]
  | write f k ih =>
    have e := (turn_own h).trans (work_going S i (by intro r h; cases h))
    obtain ⟨n, r, h1, h2⟩ := ih (S := S.turn i) (by rw [e]; rfl)
    refine ⟨n + 1, r, ?_, ?_⟩ <;> rw [List.replicate_succ, List.foldl_cons]
    · exact h1
    · rw [h2, e]

theorem finish_one {S : Locked ι σ β} (h : S.now = none) (i : ι) : ∃ sched : List ι, (sched.foldl Locked.turn S).now = none ∧
    (sched.foldl Locked.turn S).todo = Function.update S.todo i [] := by
  generalize hl : S.todo i = l
  induction l generalizing S with
  | nil => exact ⟨[], h, by rw [← hl]; simp⟩
  | cons x xs ih =>
    have e : S.turn i = { S with todo := Function.update S.todo i xs, now := some (i, x) } := by
      rw [turn_free h, hl]; rfl
    obtain ⟨n, h1, h2⟩ := turns_same (S := S.turn i) (i := i) (x := x) (by rw [e])
    obtain ⟨sched, h3, h4⟩ := ih h1 (by rw [h2, e]; simp)
    refine ⟨i :: List.replicate n i ++ sched, ?_, ?_⟩
    · rw [List.foldl_append, List.foldl_cons]; exact h3
    · rw [List.foldl_append, List.foldl_cons, h4, h2, e]; simp

theorem finish_all {S : Locked ι σ β} (h : S.now = none) (is : List ι) : ∃ sched : List ι, (sched.foldl Locked.turn S).now = none ∧
    ∀ i ∈ is, (sched.foldl Locked.turn S).todo i = [] := by
  induction is generalizing S with
  | nil => exact ⟨[], h, fun i hi => by cases hi⟩
  | cons i is ih =>
    obtain ⟨s1, h1, h2⟩ := ih h
    obtain ⟨s2, h3, h4⟩ := finish_one h1 i
    refine ⟨s1 ++ s2, by rw [List.foldl_append]; exact h3, fun j hj => ?_⟩
    rw [List.foldl_append, h4]
    by_cases hji : j = i
    · subst hji; simp
    · rw [Function.update_of_ne hji]
      exact h2 j ((List.mem_cons.mp hj).resolve_left hji)

theorem no_deadlock (S : Locked ι σ β) (is : List ι) : ∃ sched : List ι, (sched.foldl Locked.turn S).now = none ∧
    ∀ i ∈ is, (sched.foldl Locked.turn S).todo i = [] := by
  cases hn : S.now with
  | none => exact finish_all hn is
  | some p =>
    obtain ⟨n, h1, _⟩ := turns_same (i := p.1) (x := p.2) hn
    obtain ⟨s, h2, h3⟩ := finish_all h1 is
    exact ⟨List.replicate n p.1 ++ s, by rw [List.foldl_append]; exact h2, fun i hi => by rw [List.foldl_append]; exact h3 i hi⟩

end TwoLayer

/-! ## sessions -/

namespace TwoLayer

namespace TLM
variable {N α : Type} [Fintype N] [DecidableEq N] [Arith α] [DecidableEq α] (R : Registry N α)

theorem session_length (ops : List (Op N α)) (m : TLM N α) : (session R ops m).2.length = ops.length := by
  induction ops generalizing m with
  | nil => rfl
  | cons op ops ih => simp [session, ih]

/-- every call of a session is made on an object that agrees with the first one on what all calls keep -/
theorem session_get {κ : Type} {P : Op N α → Prop} {f : TLM N α → κ} (hf : ∀ op, P op → ∀ s, f (reply R op s).1 = f s)
    {ops : List (Op N α)} (h : ∀ op ∈ ops, P op) (m : TLM N α) (j : ℕ) {op : Op N α} (hj : ops[j]? = some op) :
    ∃ m', f m' = f m ∧ (session R ops m).2[j]? = some (reply R op m').2 := by
  induction ops generalizing m j with
  | nil => simp at hj
  | cons o ops ih =>
    cases j with
    | zero =>
      simp at hj
      subst hj
      exact ⟨m, rfl, by simp [session]⟩
    | succ j =>
      obtain ⟨m', h1, h2⟩ := ih (fun o ho => h o (by simp [ho])) (reply R o m).1 j (by simpa using hj)
      exact ⟨m', h1.trans (hf o (h o (by simp)) m), by simpa [session] using h2⟩
end TLM

namespace IRM
variable {N α : Type} [Fintype N] [DecidableEq N] [Arith α] [DecidableEq α] (R : Registry N α)

theorem session_length (ops : List (Op N α)) (m : IRM N α) : (session R ops m).2.length = ops.length := by
  induction ops generalizing m with
  | nil => rfl
  | cons op ops ih => simp [session, ih]

/-- every call of a session is made on an object that agrees with the first one on what all calls keep -/
theorem session_get {κ : Type} {P : Op N α → Prop} {f : IRM N α → κ} (hf : ∀ op, P op → ∀ s, f (reply R op s).1 = f s)
    {ops : List (Op N α)} (h : ∀ op ∈ ops, P op) (m : IRM N α) (j : ℕ) {op : Op N α} (hj : ops[j]? = some op) :
    ∃ m', f m' = f m ∧ (session R ops m).2[j]? = some (reply R op m').2 := by
  induction ops generalizing m j with
  | nil => simp at hj
  | cons o ops ih =>
    cases j with
    | zero =>
      simp at hj
      subst hj
      exact ⟨m, rfl, by simp [session]⟩
    | succ j =>
      obtain ⟨m', h1, h2⟩ := ih (fun o ho => h o (by simp [ho])) (reply R o m).1 j (by simpa using hj)
      exact ⟨m', h1.trans (hf o (h o (by simp)) m), by simpa [session] using h2⟩
end IRM

end TwoLayer
