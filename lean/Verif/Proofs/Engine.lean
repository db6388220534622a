import Verif.Model.ImpulseResponse
import Mathlib.Tactic

/-!
# The stepping engine shared by both models

`View` is the part of an object that `step` touches; `Eng` is what one step computes.  Both `TLM.step` and
`IRM.step` act on their object as `View.step` does on the view (`TLM.step_eq`, `IRM.step_eq`).
These are helper definitions for proofs, not part of the model.
-/

set_option linter.unusedSimpArgs false
set_option linter.unusedSectionVars false

namespace TwoLayer

/-- the mutable cells of a run -/
@[ext] structure View (α : Type) where
  idx : Option Nat
  A : List α
  B : List α
  C : List α
  F : Option (List α)

/-- one step of computation: next `A` and `B` from the previous ones and the driver, then the third output -/
structure Eng (α : Type) where
  nA : α → α → α → Except Err α
  nB : α → α → α → Except Err α
  nC : α → α → α → α → α → Except Err α   -- aPrev bPrev aNow bNow f

namespace View
variable {α : Type} [Arith α]

/-- `self._erf_mag[i]` -/
def fAt (v : View α) (i : Nat) : Except Err α :=
  match v.F with
  | none => .error .attribute
  | some l => getAt l i

/-- the cells have equal length -/
def WF (v : View α) : Prop := v.B.length = v.A.length ∧ v.C.length = v.A.length

/-- one step -/
def step (e : Eng α) (v : View α) : View α × Except Err Unit :=
  let i := nextIdx v.idx
  let v1 := { v with idx := some i }
  if i < v.A.length then
    match i with
    | 0 => ({ v1 with A := v.A.set 0 (Arith.dec 0 1), B := v.B.set 0 (Arith.dec 0 1),
                      C := v.C.set 0 (Arith.dec 0 1) }, .ok ())
    | j + 1 =>
      match v.A[j]?, v.B[j]?, v.fAt j with
      | some a, some b, .ok f =>
        match e.nA a b f with
        | .error x => (v1, .error x)
        | .ok a' =>
          let v2 := { v1 with A := v.A.set (j + 1) a' }
          match e.nB a b f with
          | .error x => (v2, .error x)
          | .ok b' =>
            let v3 := { v2 with B := v.B.set (j + 1) b' }
            match e.nC a b a' b' f with
            | .error x => (v3, .error x)
            | .ok c' => ({ v3 with C := v.C.set (j + 1) c' }, .ok ())
      | _, _, .error x => (v1, .error x)
      | _, _, _ => (v1, .error .index)
  else (v1, .error .index)
end View

end TwoLayer

namespace TwoLayer
variable {N α : Type} [Fintype N] [DecidableEq N] [Arith α]

namespace TLM
/-- view of a two-layer object -/
def view (m : TLM N α) : View α := ⟨m.idx, m.tu, m.tl, m.rndt, m.core.erfMag⟩
/-- write the view back -/
def setView (m : TLM N α) (v : View α) : TLM N α := { m with idx := v.idx, tu := v.A, tl := v.B, rndt := v.C }
/-- what one step computes -/
def eng (m : TLM N α) : Eng α where
  nA a b f := .ok (calcNextTempUpper m.core.deltaTMag a b f m.lambda0Mag m.aMag m.efficacyMag m.etaMag m.hcuMag)
  nB a b _ := .ok (calcNextTempLower m.core.deltaTMag b a m.etaMag m.hclMag)
  nC a b a' b' _ := .ok (calcNextRndt m.core.deltaTMag b' b m.hclMag a' a m.hcuMag)

theorem step_eq (m : TLM N α) (hB : m.tl.length = m.tu.length) (hC : m.rndt.length = m.tu.length)
    (hi : nextIdx m.idx < m.tu.length) :
    step m = (m.setView (m.view.step m.eng).1, (m.view.step m.eng).2) := by
  obtain ⟨j, hj⟩ : ∃ i, nextIdx m.idx = i := ⟨_, rfl⟩
  have hi' := hi
  rw [hj] at hi
  simp only [step, Py.bind_apply, Py.modify_apply, Py.get_apply, View.step, hj,
    show nextIdx m.view.idx = j from hj]
  have hA : j < m.view.A.length := hi
  simp only [hA, if_true]
  cases j with
  | zero =>
    simp only [Py.bind_apply, Py.lift_apply, setAt, Py.modify_apply]
    simp [hi, hB, hC, setView, view]
  | succ j =>
    have h1 : j < m.tu.length := by omega
    have h2 : j < m.tl.length := by omega
    simp only [Py.bind_apply, Py.lift_apply, getAt, view, Core.erfAt, View.fAt]
    rw [List.getElem?_eq_getElem h1, List.getElem?_eq_getElem h2]
    cases hF : m.core.erfMag with
    | none => simp [setView]
    | some F =>
      simp only [getAt]
      cases hFj : F[j]? with
      | none => simp [setView]
      | some f =>
        simp [setAt, hi, hB, hC, Py.get, Py.modify, Py.lift, setView, eng, getAt, h1, h2,
          show j ≠ j + 1 by omega, show ¬ (j + 1 = j) by omega, Py.bind_apply]

theorem step_over (m : TLM N α) (hB : m.tl.length = m.tu.length) (hC : m.rndt.length = m.tu.length)
    (hi : m.tu.length ≤ nextIdx m.idx) :
    ∃ e, step m = ({ m with idx := some (nextIdx m.idx) }, .error e) ∧
      ((m.tu.length < nextIdx m.idx ∨ ∀ F, m.core.erfMag = some F → F.length = m.tu.length) →
        m.core.erfMag.isSome → e = .index) := by
  obtain ⟨j, hj⟩ : ∃ i, nextIdx m.idx = i := ⟨_, rfl⟩
  rw [hj] at hi
  simp only [step, Py.bind_apply, Py.modify_apply, Py.get_apply, hj]
  cases j with
  | zero =>
    refine ⟨.index, ?_, fun _ _ => rfl⟩
    have : ¬ (0 < m.tu.length) := by omega
    simp [setAt, this, Py.lift, Py.bind_apply, hj]
  | succ j =>
    by_cases h1 : j < m.tu.length
    · have h2 : j < m.tl.length := by omega
      have h3 : ¬ (j + 1 < m.tu.length) := by omega
      simp only [Py.bind_apply, Py.lift_apply, getAt, Core.erfAt, hj]
      rw [List.getElem?_eq_getElem h1, List.getElem?_eq_getElem h2]
      cases hF : m.core.erfMag with
      | none => exact ⟨.attribute, by simp, by simp⟩
      | some F =>
        simp only
        cases hFj : F[j]? with
        | none => exact ⟨.index, by simp, fun _ _ => rfl⟩
        | some f => exact ⟨.index, by simp [setAt, h3], fun _ _ => rfl⟩
    · refine ⟨.index, ?_, fun _ _ => rfl⟩
      have : m.tu[j]? = none := by simp; omega
      simp [getAt, this, Py.lift, Py.bind_apply, hj]
end TLM

namespace IRM
/-- view of an impulse response object -/
def view (m : IRM N α) : View α := ⟨m.idx, m.t1, m.t2, m.rndt, m.core.erfMag⟩
/-- write the view back -/
def setView (m : IRM N α) (v : View α) : IRM N α := { m with idx := v.idx, t1 := v.A, t2 := v.B, rndt := v.C }
/-- what one step computes -/
def eng (R : Registry N α) (m : IRM N α) : Eng α where
  nA a _ f := calcNextTemp m.core.deltaTMag a m.q1Mag m.d1Mag f
  nB _ b f := calcNextTemp m.core.deltaTMag b m.q2Mag m.d2Mag f
  nC a b _ _ f := m.calcNextRndt R a b f m.efficacyMag

theorem step_eq (R : Registry N α) (m : IRM N α) (hB : m.t2.length = m.t1.length)
    (hC : m.rndt.length = m.t1.length) (hi : nextIdx m.idx < m.t1.length) :
    step R m = (m.setView (m.view.step (m.eng R)).1, (m.view.step (m.eng R)).2) := by
  obtain ⟨j, hj⟩ : ∃ i, nextIdx m.idx = i := ⟨_, rfl⟩
  rw [hj] at hi
  simp only [step, Py.bind_apply, Py.modify_apply, Py.get_apply, View.step, hj,
    show nextIdx m.view.idx = j from hj]
  have hA : j < m.view.A.length := hi
  simp only [hA, if_true]
  cases j with
  | zero =>
    simp only [Py.bind_apply, Py.lift_apply, setAt, Py.modify_apply]
    simp [hi, hB, hC, setView, view]
  | succ j =>
    have h1 : j < m.t1.length := by omega
    have h2 : j < m.t2.length := by omega
    simp only [Py.bind_apply, Py.lift_apply, getAt, view, Core.erfAt, View.fAt]
    rw [List.getElem?_eq_getElem h1, List.getElem?_eq_getElem h2]
    cases hF : m.core.erfMag with
    | none => simp [setView]
    | some F =>
      simp only [getAt]
      cases hFj : F[j]? with
      | none => simp [setView]
      | some f =>
        simp only [eng]
        cases hx : calcNextTemp m.core.deltaTMag m.t1[j] m.q1Mag m.d1Mag f with
        | error e => simp [setView]
        | ok x =>
          cases hy : calcNextTemp m.core.deltaTMag m.t2[j] m.q2Mag m.d2Mag f with
          | error e =>
            simp [setAt, hi, hB, hC, setView, getAt, h1, h2, Core.erfAt, hF, hFj, hy, Py.bind_apply,
              Py.get, Py.modify, Py.lift]
          | ok y =>
            have hr : ∀ t1 t2 r i, calcNextRndt R { m with t1 := t1, t2 := t2, rndt := r, idx := i } =
                calcNextRndt R m := fun _ _ _ _ => rfl
            cases hz : m.calcNextRndt R m.t1[j] m.t2[j] f m.efficacyMag with
            | error e =>
              simp [setAt, hi, hB, hC, setView, getAt, h1, h2, Core.erfAt, hF, hFj, hy, Py.bind_apply,
                Py.get, Py.modify, Py.lift]
              simp only [hr, hz]
            | ok z =>
              simp [setAt, hi, hB, hC, setView, getAt, h1, h2, Core.erfAt, hF, hFj, hy, Py.bind_apply,
                Py.get, Py.modify, Py.lift]
              simp only [hr, hz]

theorem step_over (R : Registry N α) (m : IRM N α) (hB : m.t2.length = m.t1.length)
    (hC : m.rndt.length = m.t1.length) (hi : m.t1.length ≤ nextIdx m.idx) :
    ∃ e, step R m = ({ m with idx := some (nextIdx m.idx) }, .error e) ∧
      ((m.t1.length < nextIdx m.idx ∨ (∀ F, m.core.erfMag = some F → F.length = m.t1.length)) →
        m.core.erfMag.isSome →
        (∀ t f, ∃ x, calcNextTemp m.core.deltaTMag t m.q1Mag m.d1Mag f = .ok x) → e = .index) := by
  obtain ⟨j, hj⟩ : ∃ i, nextIdx m.idx = i := ⟨_, rfl⟩
  rw [hj] at hi
  simp only [step, Py.bind_apply, Py.modify_apply, Py.get_apply, hj]
  cases j with
  | zero =>
    refine ⟨.index, ?_, fun _ _ _ => rfl⟩
    have : ¬ (0 < m.t1.length) := by omega
    simp [setAt, this, Py.lift, Py.bind_apply, hj]
  | succ j =>
    by_cases h1 : j < m.t1.length
    · have h2 : j < m.t2.length := by omega
      have h3 : ¬ (j + 1 < m.t1.length) := by omega
      simp only [Py.bind_apply, Py.lift_apply, getAt, Core.erfAt, hj]
      rw [List.getElem?_eq_getElem h1]
      cases hF : m.core.erfMag with
      | none => exact ⟨.attribute, by simp, by simp⟩
      | some F =>
        simp only
        cases hFj : F[j]? with
        | none => exact ⟨.index, by simp, fun _ _ _ => rfl⟩
        | some f =>
          simp only
          cases hx : calcNextTemp m.core.deltaTMag m.t1[j] m.q1Mag m.d1Mag f with
          | error e =>
            refine ⟨e, by simp, fun _ _ h => ?_⟩
            obtain ⟨x, h⟩ := h m.t1[j] f
            rw [h] at hx; cases hx
          | ok x => exact ⟨.index, by simp [setAt, h3], fun _ _ _ => rfl⟩
    · refine ⟨.index, ?_, fun _ _ _ => rfl⟩
      have : m.t1[j]? = none := by simp; omega
      simp [getAt, this, Py.lift, Py.bind_apply, hj]
end IRM
end TwoLayer
