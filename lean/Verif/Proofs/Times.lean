import Verif.Proofs.Engine

/-! # Iterating the engine: what the cells hold after `k` steps -/

set_option linter.unusedSimpArgs false
set_option linter.unusedSectionVars false

namespace TwoLayer

namespace Py
variable {σ : Type}
@[simp] theorem times_zero (x : Py σ Unit) (s : σ) : times x 0 s = (s, .ok ()) := rfl
theorem times_succ (x : Py σ Unit) (k : Nat) (s : σ) : times x (k + 1) s = match x s with
    | (s', .ok _) => times x k s'
    | (s', .error e) => (s', .error e) := by
  simp only [times, Py.bind_apply]
  rcases x s with ⟨s', _ | _⟩ <;> rfl

theorem times_add (x : Py σ Unit) (a b : Nat) (s : σ) : times x (a + b) s = match times x a s with
    | (s', .ok _) => times x b s'
    | (s', .error e) => (s', .error e) := by
  induction a generalizing s with
  | zero => simp
  | succ a ih =>
    rw [show a + 1 + b = (a + b) + 1 by omega, times_succ, times_succ]
    rcases x s with ⟨s', _ | _⟩
    · rfl
    · exact ih s'

theorem times_snoc (x : Py σ Unit) (k : Nat) (s : σ) : times x (k + 1) s = match times x k s with
    | (s', .ok _) => x s'
    | (s', .error e) => (s', .error e) := by
  rw [times_add]
  rcases times x k s with ⟨s', _ | _⟩
  · rfl
  · simp only [times_succ, times_zero]
    rcases x s' with ⟨s'', _ | ⟨⟩⟩ <;> rfl
end Py

variable {α : Type} [Arith α]

/-- the values of cell `i`, computed without any object: index 0 is `0.0`, index `k+1` comes from index `k`
and driver value `k` -/
def Eng.seq (e : Eng α) (F : List α) : Nat → Except Err (α × α × α)
  | 0 => .ok (Arith.dec 0 1, Arith.dec 0 1, Arith.dec 0 1)
  | k + 1 =>
    match Eng.seq e F k with
    | .error x => .error x
    | .ok (a, b, _) =>
      match getAt F k with
      | .error x => .error x
      | .ok f =>
        match e.nA a b f with
        | .error x => .error x
        | .ok a' =>
          match e.nB a b f with
          | .error x => .error x
          | .ok b' =>
            match e.nC a b a' b' f with
            | .error x => .error x
            | .ok c' => .ok (a', b', c')

/-- all cells up to `k` computed, the rest NaN -/
structure View.Inv (e : Eng α) (F : List α) (k : Nat) (v : View α) : Prop where
  hF : v.F = some F
  lA : v.A.length = F.length
  lB : v.B.length = F.length
  lC : v.C.length = F.length
  idx : v.idx = if k = 0 then none else some (k - 1)
  done : ∀ i < k, ∃ a b c, e.seq F i = .ok (a, b, c) ∧ v.A[i]? = some a ∧ v.B[i]? = some b ∧ v.C[i]? = some c
  todo : ∀ i, k ≤ i → i < F.length →
    v.A[i]? = some Arith.nan ∧ v.B[i]? = some Arith.nan ∧ v.C[i]? = some Arith.nan

/-- a freshly reset view -/
def View.fresh (F : List α) : View α := ⟨none, nanLike F, nanLike F, nanLike F, some F⟩

theorem View.fresh_inv (e : Eng α) (F : List α) : View.Inv e F 0 (View.fresh F) where
  hF := rfl
  lA := by simp [fresh, nanLike]
  lB := by simp [fresh, nanLike]
  lC := by simp [fresh, nanLike]
  idx := by simp [fresh]
  done := by simp
  todo := by
    intro i _ hi
    simp [fresh, nanLike, hi]

theorem View.Inv.next_idx {e : Eng α} {F : List α} {k : Nat} {v : View α} (h : View.Inv e F k v) :
    nextIdx v.idx = k := by
  rw [h.idx]
  by_cases hk : k = 0
  · simp [hk, nextIdx]
  · rw [if_neg hk]; simp [nextIdx]; omega

theorem View.Inv.step_ok {e : Eng α} {F : List α} {k : Nat} {v : View α} (h : View.Inv e F k v)
    (hk : k < F.length) {x : α × α × α} (hx : e.seq F k = .ok x) :
    ∃ v', View.step e v = (v', .ok ()) ∧ View.Inv e F (k + 1) v' := by
  have hkA : k < v.A.length := by rw [h.lA]; exact hk
  have hkB : k < v.B.length := by rw [h.lB]; exact hk
  have hkC : k < v.C.length := by rw [h.lC]; exact hk
  have key : ∀ a b c : α, e.seq F k = .ok (a, b, c) →
      View.Inv e F (k + 1) ⟨some k, v.A.set k a, v.B.set k b, v.C.set k c, some F⟩ := by
    intro a b c hseq
    refine ⟨rfl, by simp [h.lA], by simp [h.lB], by simp [h.lC], by simp, ?_, ?_⟩
    · intro i hi
      by_cases hik : i = k
      · subst hik
        exact ⟨a, b, c, hseq, by simp [hkA], by simp [hkB], by simp [hkC]⟩
      · obtain ⟨a', b', c', h1, h2, h3, h4⟩ := h.done i (by omega)
        have : k ≠ i := fun h => hik h.symm
        exact ⟨a', b', c', h1, by simp [this, h2], by simp [this, h3], by simp [this, h4]⟩
    · intro i hi hiF
      have : k ≠ i := by omega
      obtain ⟨h1, h2, h3⟩ := h.todo i (by omega) hiF
      exact ⟨by simp [this, h1], by simp [this, h2], by simp [this, h3]⟩
  cases k with
  | zero =>
    refine ⟨_, ?_, key _ _ _ rfl⟩
    simp only [View.step, h.next_idx, if_pos hkA, h.hF]
  | succ j =>
    obtain ⟨a, b, c, h1, h2, h3, h4⟩ := h.done j (by omega)
    obtain ⟨a', b', c'⟩ := x
    have hx0 := hx
    simp only [Eng.seq, h1] at hx
    have hf : v.fAt j = getAt F j := by simp [View.fAt, h.hF]
    cases hg : getAt F j with
    | error x => rw [hg] at hx; simp at hx
    | ok f =>
      rw [hg] at hx hf
      simp only at hx
      cases hA : e.nA a b f with
      | error x => rw [hA] at hx; simp at hx
      | ok a'' =>
        rw [hA] at hx; simp only at hx
        cases hB : e.nB a b f with
        | error x => rw [hB] at hx; simp at hx
        | ok b'' =>
          rw [hB] at hx; simp only at hx
          cases hC : e.nC a b a'' b'' f with
          | error x => rw [hC] at hx; simp at hx
          | ok c'' =>
            rw [hC] at hx
            simp only [Except.ok.injEq, Prod.mk.injEq] at hx
            obtain ⟨rfl, rfl, rfl⟩ := hx
            refine ⟨_, ?_, key _ _ _ hx0⟩
            simp only [View.step, h.next_idx, if_pos hkA, h2, h3, hf, hA, hB, hC, h.hF]

theorem View.Inv.step_error {e : Eng α} {F : List α} {k : Nat} {v : View α} (h : View.Inv e F k v)
    (hk : k < F.length) {x : Err} (hx : e.seq F k = .error x) :
    ∃ v', View.step e v = (v', .error x) := by
  have hkA : k < v.A.length := by rw [h.lA]; exact hk
  cases k with
  | zero => simp [Eng.seq] at hx
  | succ j =>
    obtain ⟨a, b, c, h1, h2, h3, h4⟩ := h.done j (by omega)
    simp only [Eng.seq, h1] at hx
    have hf : v.fAt j = getAt F j := by simp [View.fAt, h.hF]
    simp only [View.step, h.next_idx, if_pos hkA, h2, h3, hf]
    cases hg : getAt F j with
    | error y =>
      rw [hg] at hx; simp only at hx; cases hx
      exact ⟨_, rfl⟩
    | ok f =>
      rw [hg] at hx; simp only at hx ⊢
      cases hA : e.nA a b f with
      | error y => rw [hA] at hx; simp only at hx; cases hx; exact ⟨_, rfl⟩
      | ok a'' =>
        rw [hA] at hx; simp only at hx ⊢
        cases hB : e.nB a b f with
        | error y => rw [hB] at hx; simp only at hx; cases hx; exact ⟨_, rfl⟩
        | ok b'' =>
          rw [hB] at hx; simp only at hx ⊢
          cases hC : e.nC a b a'' b'' f with
          | error y => rw [hC] at hx; simp only at hx; cases hx; exact ⟨_, rfl⟩
          | ok c'' => rw [hC] at hx; simp at hx

/-- an object whose `step` is `View.step` on its view -/
structure Stepper (σ α : Type) [Arith α] where
  step : Py σ Unit
  view : σ → View α
  setView : σ → View α → σ
  eng : σ → Eng α
  view_setView : ∀ s v, v.F = (view s).F → view (setView s v) = v
  setView_view : ∀ s, setView s (view s) = s
  setView_setView : ∀ s v w, setView (setView s v) w = setView s w
  eng_setView : ∀ s v, eng (setView s v) = eng s
  step_eq : ∀ s, (view s).WF → nextIdx (view s).idx < (view s).A.length →
    step s = (setView s ((view s).step (eng s)).1, ((view s).step (eng s)).2)

namespace Stepper
variable {σ : Type} (S : Stepper σ α)

/-- `k` successful steps from a fresh state, as long as the recurrence is defined -/
theorem times_ok (s : σ) (F : List α) (hs : S.view s = View.fresh F) :
    ∀ k ≤ F.length, (∀ i < k, ∃ x, (S.eng s).seq F i = .ok x) →
      ∃ v, Py.times S.step k s = (S.setView s v, .ok ()) ∧ View.Inv (S.eng s) F k v := by
  intro k
  induction k with
  | zero =>
    intro _ _
    refine ⟨S.view s, by simp [S.setView_view], ?_⟩
    rw [hs]; exact View.fresh_inv _ _
  | succ k ih =>
    intro hk hall
    obtain ⟨v, hv, hI⟩ := ih (by omega) (fun i hi => hall i (by omega))
    obtain ⟨x, hx⟩ := hall k (by omega)
    obtain ⟨v', h1, h2⟩ := hI.step_ok (by omega) hx
    refine ⟨v', ?_, h2⟩
    have hvv : S.view (S.setView s v) = v := S.view_setView _ _ (by rw [hs, hI.hF]; rfl)
    rw [Py.times_snoc, hv]
    simp only
    rw [S.step_eq, hvv, S.eng_setView, h1, S.setView_setView]
    · rw [hvv]; exact ⟨by rw [hI.lB, hI.lA], by rw [hI.lC, hI.lA]⟩
    · rw [hvv, hI.next_idx, hI.lA]; omega

/-- the first undefined recurrence value is the error raised -/
theorem times_error (s : σ) (F : List α) (hs : S.view s = View.fresh F) (j : Nat) (hj : j < F.length)
    (hall : ∀ i < j, ∃ x, (S.eng s).seq F i = .ok x) {e : Err} (he : (S.eng s).seq F j = .error e) (k : Nat)
    (hk : j < k) : ∃ s', Py.times S.step k s = (s', .error e) := by
  obtain ⟨v, hv, hI⟩ := S.times_ok s F hs j (by omega) hall
  obtain ⟨v', h1⟩ := hI.step_error hj he
  have hvv : S.view (S.setView s v) = v := S.view_setView _ _ (by rw [hs, hI.hF]; rfl)
  have h2 : Py.times S.step (j + 1) s = (S.setView s v', .error e) := by
    rw [Py.times_snoc, hv]
    simp only
    rw [S.step_eq, hvv, S.eng_setView, h1, S.setView_setView]
    · rw [hvv]; exact ⟨by rw [hI.lB, hI.lA], by rw [hI.lC, hI.lA]⟩
    · rw [hvv, hI.next_idx, hI.lA]; omega
  obtain ⟨d, rfl⟩ : ∃ d, k = (j + 1) + d := ⟨k - (j + 1), by omega⟩
  exact ⟨S.setView s v', by rw [Py.times_add, h2]⟩

/-- a complete run: succeeds iff the whole recurrence is defined, and then holds it -/
theorem times_inv (s : σ) (F : List α) (hs : S.view s = View.fresh F) {k : Nat} (hk : k ≤ F.length) {s' : σ}
    (h : Py.times S.step k s = (s', .ok ())) :
    (∀ i < k, ∃ x, (S.eng s).seq F i = .ok x) ∧
      ∃ v, s' = S.setView s v ∧ View.Inv (S.eng s) F k v := by
  have hall : ∀ i < k, ∃ x, (S.eng s).seq F i = .ok x := by
    intro i hi
    induction i using Nat.strong_induction_on with
    | _ i ih =>
      cases hseq : (S.eng s).seq F i with
      | ok x => exact ⟨x, rfl⟩
      | error e =>
        obtain ⟨s'', h'⟩ := S.times_error s F hs i (by omega) (fun j hj => ih j hj (by omega)) hseq k hi
        rw [h] at h'; cases h'
  obtain ⟨v, hv, hI⟩ := S.times_ok s F hs k hk hall
  rw [h] at hv
  exact ⟨hall, v, by cases hv; rfl, hI⟩
end Stepper

variable {N : Type} [Fintype N] [DecidableEq N]

/-- the two-layer model as a stepper -/
def TLM.stepper : Stepper (TLM N α) α where
  step := TLM.step
  view := TLM.view
  setView := TLM.setView
  eng := TLM.eng
  view_setView := by rintro s ⟨i, A, B, C, F⟩ h; simp only [TLM.view] at h; subst h; rfl
  setView_view _ := rfl
  setView_setView _ _ _ := rfl
  eng_setView _ _ := rfl
  step_eq s h hi := TLM.step_eq s h.1 h.2 hi

/-- the impulse response model as a stepper -/
def IRM.stepper (R : Registry N α) : Stepper (IRM N α) α where
  step := IRM.step R
  view := IRM.view
  setView := IRM.setView
  eng := IRM.eng R
  view_setView := by rintro s ⟨i, A, B, C, F⟩ h; simp only [IRM.view] at h; subst h; rfl
  setView_view _ := rfl
  setView_setView _ _ _ := rfl
  eng_setView _ _ := rfl
  step_eq s h hi := IRM.step_eq R s h.1 h.2 hi

end TwoLayer
