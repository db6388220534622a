import Verif.Spec.Coupled
import Verif.Proofs.Simulate

/-! # A step reads one driver value and no other part of the drivers -/

set_option linter.unusedSimpArgs false
set_option linter.unusedSectionVars false

namespace TwoLayer
variable {N α : Type} [Fintype N] [DecidableEq N] [Arith α]

/-- the object with other drivers -/
def TLM.withErf (m : TLM N α) (e : Erf N α) (F : Option (List α)) : TLM N α :=
  { m with core := { m.core with erf := e, erfMag := F } }

/-- the object with other drivers -/
def IRM.withErf (m : IRM N α) (e : Erf N α) (F : Option (List α)) : IRM N α :=
  { m with core := { m.core with erf := e, erfMag := F } }

theorem TLM.step_withErf (m : TLM N α) (e : Erf N α) (F : Option (List α))
    (h : ∀ j, nextIdx m.idx = j + 1 → (m.withErf e F).core.erfAt j = m.core.erfAt j) :
    TLM.step (m.withErf e F) = ((TLM.step m).1.withErf e F, (TLM.step m).2) := by
  obtain ⟨i, hi⟩ : ∃ i, nextIdx m.idx = i := ⟨_, rfl⟩
  have hi' : nextIdx (m.withErf e F).idx = i := hi
  simp only [TLM.step, Py.bind_apply, Py.modify_apply, Py.get_apply, hi, hi']
  cases i with
  | zero =>
    simp only [Py.bind_apply, Py.lift_apply, Py.modify_apply, TLM.withErf]
    cases setAt m.tu 0 (Arith.dec 0 1 : α) <;> try simp only []
    cases setAt m.tl 0 (Arith.dec 0 1 : α) <;> try simp only []
    cases setAt m.rndt 0 (Arith.dec 0 1 : α) <;> try simp only []
  | succ j =>
    have hj := h j hi
    have e1 : ∀ y, (({ m.withErf e F with idx := y } : TLM N α).core.erfAt j) = m.core.erfAt j := fun _ => hj
    simp only [Py.bind_apply, Py.lift_apply, Py.modify_apply, Py.get_apply, e1]
    simp only [TLM.withErf]
    cases getAt m.tu j with
    | error _ => rfl
    | ok tu1 =>
    cases getAt m.tl j with
    | error _ => rfl
    | ok tl1 =>
    cases m.core.erfAt j with
    | error _ => rfl
    | ok f =>
    simp only []
    generalize calcNextTempUpper m.core.deltaTMag tu1 tl1 f m.lambda0Mag m.aMag m.efficacyMag m.etaMag m.hcuMag = x
    cases setAt m.tu (j + 1) x with
    | error _ => rfl
    | ok tu2 =>
    simp only []
    cases getAt m.tl j with
    | error _ => rfl
    | ok tl1 =>
    simp only []
    cases getAt tu2 j with
    | error _ => rfl
    | ok tu1 =>
    simp only []
    cases setAt m.tl (j + 1) (calcNextTempLower m.core.deltaTMag tl1 tu1 m.etaMag m.hclMag) with
    | error _ => rfl
    | ok tl2 =>
    simp only []
    cases getAt tl2 (j + 1) with
    | error _ => rfl
    | ok a =>
    simp only []
    cases getAt tl2 j with
    | error _ => rfl
    | ok b =>
    simp only []
    cases getAt tu2 (j + 1) with
    | error _ => rfl
    | ok c =>
    simp only []
    cases getAt tu2 j with
    | error _ => rfl
    | ok d =>
    simp only []
    cases setAt m.rndt (j + 1) (calcNextRndt m.core.deltaTMag a b m.hclMag c d m.hcuMag) <;> rfl

theorem IRM.step_withErf (R : Registry N α) (m : IRM N α) (e : Erf N α) (F : Option (List α))
    (h : ∀ j, nextIdx m.idx = j + 1 → (m.withErf e F).core.erfAt j = m.core.erfAt j) :
    IRM.step R (m.withErf e F) = ((IRM.step R m).1.withErf e F, (IRM.step R m).2) := by
  obtain ⟨i, hi⟩ : ∃ i, nextIdx m.idx = i := ⟨_, rfl⟩
  have hi' : nextIdx (m.withErf e F).idx = i := hi
  simp only [IRM.step, Py.bind_apply, Py.modify_apply, Py.get_apply, hi, hi']
  cases i with
  | zero =>
    simp only [Py.bind_apply, Py.lift_apply, Py.modify_apply, IRM.withErf]
    cases setAt m.t1 0 (Arith.dec 0 1 : α) <;> try simp only []
    cases setAt m.t2 0 (Arith.dec 0 1 : α) <;> try simp only []
    cases setAt m.rndt 0 (Arith.dec 0 1 : α) <;> try simp only []
  | succ j =>
    have hj := h j hi
    simp only [Py.bind_apply, Py.lift_apply, Py.modify_apply, Py.get_apply]
    have e0 : (m.withErf e F).core.erfAt j = m.core.erfAt j := hj
    simp only [e0]
    cases hf : m.core.erfAt j with
    | error _ =>
      simp only [IRM.withErf]
      cases getAt m.t1 j <;> rfl
    | ok f =>
    rw [hf] at e0
    change ({ m.core with erf := e, erfMag := F } : Core N α).erfAt j = .ok f at e0
    simp only [IRM.withErf]
    cases getAt m.t1 j with
    | error _ => rfl
    | ok t1 =>
    simp only []
    cases calcNextTemp m.core.deltaTMag t1 m.q1Mag m.d1Mag f with
    | error _ => rfl
    | ok x =>
    simp only []
    cases setAt m.t1 (j + 1) x with
    | error _ => rfl
    | ok t1' =>
    simp only [hf, e0]
    cases getAt m.t2 j with
    | error _ => rfl
    | ok t2 =>
    simp only [hf, e0]
    cases calcNextTemp m.core.deltaTMag t2 m.q2Mag m.d2Mag f with
    | error _ => rfl
    | ok y =>
    simp only [hf, e0]
    cases setAt m.t2 (j + 1) y with
    | error _ => rfl
    | ok t2' =>
    simp only [hf, e0]
    cases getAt t1' j with
    | error _ => rfl
    | ok a =>
    simp only [hf, e0]
    cases getAt t2' j with
    | error _ => rfl
    | ok b =>
    simp only [hf, e0]
    have hz : ∀ c : Core N α, IRM.calcNextRndt R ⟨m.q1, m.q1Mag, m.q2, m.q2Mag, m.d1, m.d1Mag, m.d2, m.d2Mag,
        m.efficacy, m.efficacyMag, c, t1', t2', m.rndt, some (j + 1)⟩ a b f m.efficacyMag
        = IRM.calcNextRndt R m a b f m.efficacyMag := fun _ => rfl
    simp only [hz]
    cases IRM.calcNextRndt R m a b f m.efficacyMag with
    | error _ => rfl
    | ok z =>
    simp only []
    cases setAt m.rndt (j + 1) z <;> rfl

theorem modelF_wm2 (R : Registry N α) (vals : List α) : modelF R vals R.wm2 = vals := by
  simp [modelF, magsIn, Qty.magIn]

namespace TLM
theorem step_erf (m : TLM N α) : (TLM.step m).1.core.erf = m.core.erf ∧ (TLM.step m).1.core.erfMag = m.core.erfMag := by
  have h := TLM.step_withErf m m.core.erf m.core.erfMag (fun _ _ => rfl)
  rw [show m.withErf m.core.erf m.core.erfMag = m from rfl] at h
  have h := congrArg Prod.fst h
  exact ⟨by rw [h]; rfl, by rw [h]; rfl⟩

/-- `k` steps of an object and of the same object with other values beside the same magnitudes -/
theorem times_withErf (e : Erf N α) (k : Nat) : ∀ m : TLM N α,
    Py.times (TLM.step) k (m.withErf e m.core.erfMag) =
      ((Py.times (TLM.step) k m).1.withErf e m.core.erfMag, (Py.times (TLM.step) k m).2) := by
  induction k with
  | zero => intro m; rfl
  | succ k ih =>
    intro m
    rw [Py.times_succ, Py.times_succ, TLM.step_withErf m e m.core.erfMag (fun _ _ => rfl)]
    have hF := (step_erf m).2
    rcases h : TLM.step m with ⟨s, _ | _⟩
    · rfl
    · rw [h] at hF
      simp only at hF ⊢
      rw [← hF]
      exact ih s

theorem times_erf (k : Nat) : ∀ m : TLM N α, (Py.times (TLM.step) k m).1.core.erf = m.core.erf ∧
    (Py.times (TLM.step) k m).1.core.erfMag = m.core.erfMag := by
  induction k with
  | zero => intro m; exact ⟨rfl, rfl⟩
  | succ k ih =>
    intro m
    rw [Py.times_succ]
    have hF := step_erf m
    rcases h : TLM.step m with ⟨s, _ | _⟩
    · rw [h] at hF; exact hF
    · rw [h] at hF
      exact ⟨(ih s).1.trans hF.1, (ih s).2.trans hF.2⟩

/-- stepping with the array rewritten before each step: the object follows the run whose driver `i` is the value
cell `i` held when step `i + 1` was taken -/
theorem interleave_eq (R : Registry N α) (m : TLM N α) {vals w : List α} {g : Nat → List α}
    (hw : w.length = vals.length) (hg : ∀ k, (g k).length = vals.length)
    (h : ∀ i, i + 1 < vals.length → w[i]? = (g (i + 1))[i]?) :
    ∀ k ≤ vals.length, ∃ l : List α, l.length = vals.length ∧
      interleave (fun k => TLM.overwrite R (g k)) (TLM.step) k (m.ready R vals R.wm2) =
      ((Py.times (TLM.step) k (m.ready R w R.wm2)).1.withErf (.set l R.wm2) (some l),
        (Py.times (TLM.step) k (m.ready R w R.wm2)).2) := by
  intro k
  induction k with
  | zero =>
    intro _
    refine ⟨vals, rfl, ?_⟩
    have e1 : modelF R vals R.wm2 = vals := modelF_wm2 R _
    have e2 : modelF R w R.wm2 = w := modelF_wm2 R _
    have e3 : nanLike w = nanLike vals := by
      simp only [nanLike, List.map_const', hw]
    show (m.ready R vals R.wm2, Except.ok ()) = _
    simp only [Py.times_zero, ready, TLM.withErf, e1, e2, e3]
  | succ k ih =>
    intro hk
    obtain ⟨l, hl, ih⟩ := ih (by omega)
    simp only [interleave, Py.bind_apply, ih, Py.times_snoc]
    rcases hs : Py.times (TLM.step) k (m.ready R w R.wm2) with ⟨s, _ | ⟨⟩⟩
    · exact ⟨l, hl, rfl⟩
    · have e2 : modelF R w R.wm2 = w := modelF_wm2 R _
      obtain ⟨-, v, rfl, hI⟩ := TLM.stepper.times_inv (m.ready R w R.wm2) w (by show View.fresh _ = _; rw [e2])
        (by omega) hs
      refine ⟨g k, hg k, ?_⟩
      simp only [TLM.overwrite, Py.modify_apply, Core.overwrite, TLM.withErf, hg k, hl, if_true]
      refine TLM.step_withErf _ (.set (g k) R.wm2) (some (g k)) ?_
      intro j hj
      have hidx : nextIdx v.idx = k := hI.next_idx
      have hj : nextIdx v.idx = j + 1 := hj
      have hkj : k = j + 1 := by omega
      subst hkj
      show getAt (g (j + 1)) j = getAt (modelF R w R.wm2) j
      rw [e2, getAt, getAt, h j (by omega)]
end TLM

namespace IRM
theorem step_erf (R : Registry N α) (m : IRM N α) : (IRM.step R m).1.core.erf = m.core.erf ∧ (IRM.step R m).1.core.erfMag = m.core.erfMag := by
  have h := IRM.step_withErf R m m.core.erf m.core.erfMag (fun _ _ => rfl)
  rw [show m.withErf m.core.erf m.core.erfMag = m from rfl] at h
  have h := congrArg Prod.fst h
  exact ⟨by rw [h]; rfl, by rw [h]; rfl⟩

/-- `k` steps of an object and of the same object with other values beside the same magnitudes -/
theorem times_withErf (R : Registry N α) (e : Erf N α) (k : Nat) : ∀ m : IRM N α,
    Py.times (IRM.step R) k (m.withErf e m.core.erfMag) =
      ((Py.times (IRM.step R) k m).1.withErf e m.core.erfMag, (Py.times (IRM.step R) k m).2) := by
  induction k with
  | zero => intro m; rfl
  | succ k ih =>
    intro m
    rw [Py.times_succ, Py.times_succ, IRM.step_withErf R m e m.core.erfMag (fun _ _ => rfl)]
    have hF := (step_erf R m).2
    rcases h : IRM.step R m with ⟨s, _ | _⟩
    · rfl
    · rw [h] at hF
      simp only at hF ⊢
      rw [← hF]
      exact ih s

theorem times_erf (R : Registry N α) (k : Nat) : ∀ m : IRM N α, (Py.times (IRM.step R) k m).1.core.erf = m.core.erf ∧
    (Py.times (IRM.step R) k m).1.core.erfMag = m.core.erfMag := by
  induction k with
  | zero => intro m; exact ⟨rfl, rfl⟩
  | succ k ih =>
    intro m
    rw [Py.times_succ]
    have hF := step_erf R m
    rcases h : IRM.step R m with ⟨s, _ | _⟩
    · rw [h] at hF; exact hF
    · rw [h] at hF
      exact ⟨(ih s).1.trans hF.1, (ih s).2.trans hF.2⟩

/-- stepping with the array rewritten before each step: the object follows the run whose driver `i` is the value
cell `i` held when step `i + 1` was taken -/
theorem interleave_eq (R : Registry N α) (m : IRM N α) {vals w : List α} {g : Nat → List α}
    (hw : w.length = vals.length) (hg : ∀ k, (g k).length = vals.length)
    (h : ∀ i, i + 1 < vals.length → w[i]? = (g (i + 1))[i]?) :
    ∀ k ≤ vals.length, ∃ l : List α, l.length = vals.length ∧
      interleave (fun k => IRM.overwrite R (g k)) (IRM.step R) k (m.ready R vals R.wm2) =
      ((Py.times (IRM.step R) k (m.ready R w R.wm2)).1.withErf (.set l R.wm2) (some l),
        (Py.times (IRM.step R) k (m.ready R w R.wm2)).2) := by
  intro k
  induction k with
  | zero =>
    intro _
    refine ⟨vals, rfl, ?_⟩
    have e1 : modelF R vals R.wm2 = vals := modelF_wm2 R _
    have e2 : modelF R w R.wm2 = w := modelF_wm2 R _
    have e3 : nanLike w = nanLike vals := by
      simp only [nanLike, List.map_const', hw]
    show (m.ready R vals R.wm2, Except.ok ()) = _
    simp only [Py.times_zero, ready, IRM.withErf, e1, e2, e3]
  | succ k ih =>
    intro hk
    obtain ⟨l, hl, ih⟩ := ih (by omega)
    simp only [interleave, Py.bind_apply, ih, Py.times_snoc]
    rcases hs : Py.times (IRM.step R) k (m.ready R w R.wm2) with ⟨s, _ | ⟨⟩⟩
    · exact ⟨l, hl, rfl⟩
    · have e2 : modelF R w R.wm2 = w := modelF_wm2 R _
      obtain ⟨-, v, rfl, hI⟩ := (IRM.stepper R).times_inv (m.ready R w R.wm2) w (by show View.fresh _ = _; rw [e2])
        (by omega) hs
      refine ⟨g k, hg k, ?_⟩
      simp only [IRM.overwrite, Py.modify_apply, Core.overwrite, IRM.withErf, hg k, hl, if_true]
      refine IRM.step_withErf R _ (.set (g k) R.wm2) (some (g k)) ?_
      intro j hj
      have hidx : nextIdx v.idx = k := hI.next_idx
      have hj : nextIdx v.idx = j + 1 := hj
      have hkj : k = j + 1 := by omega
      subst hkj
      show getAt (g (j + 1)) j = getAt (modelF R w R.wm2) j
      rw [e2, getAt, getAt, h j (by omega)]
end IRM

end TwoLayer
