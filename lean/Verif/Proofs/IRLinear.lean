import Verif.Proofs.ExactIR
import Verif.Proofs.IRMath

set_option linter.unusedSimpArgs false

/-!
# Heat uptake of any successful run

Whatever the parameters, the heat uptake of an impulse response object is the forcing minus a fixed linear function of the two
box temperatures: lemmas for C19, C20, C30.
-/

namespace TwoLayer
variable {N : Type} [Fintype N] [DecidableEq N] {R : Registry N XR}

theorem XR.fin_of_add {a b : XR} {x : ℝ} (h : a + b = .fin x) : ∃ y z, a = .fin y ∧ b = .fin z ∧ x = y + z := by
  cases a with
  | nan => cases b <;> cases h
  | fin y =>
    cases b with
    | nan => cases h
    | fin z => exact ⟨y, z, rfl, rfl, (XR.fin_inj.mp h).symm⟩

theorem XR.fin_of_sub {a b : XR} {x : ℝ} (h : a - b = .fin x) : ∃ y z, a = .fin y ∧ b = .fin z ∧ x = y - z := by
  cases a with
  | nan => cases b <;> cases h
  | fin y =>
    cases b with
    | nan => cases h
    | fin z => exact ⟨y, z, rfl, rfl, (XR.fin_inj.mp h).symm⟩

theorem XR.fin_of_mul {a b : XR} {x : ℝ} (h : a * b = .fin x) : ∃ y z, a = .fin y ∧ b = .fin z ∧ x = y * z := by
  cases a with
  | nan => cases b <;> cases h
  | fin y =>
    cases b with
    | nan => cases h
    | fin z => exact ⟨y, z, rfl, rfl, (XR.fin_inj.mp h).symm⟩

/-- the number in a value, 0 if there is none -/
def XR.val : XR → ℝ
  | .fin x => x
  | .nan => 0

section
variable (L : R.Lawful)
include L

/-- the heat uptake over a step: forcing minus `α` times one box minus `β` times the other, with fixed `α`, `β` -/
theorem IRM.nextRndt_linear (m : IRM N XR) : ∃ α β : ℝ, ∀ t1 t2 f x : ℝ,
    m.calcNextRndt R (.fin t1) (.fin t2) (.fin f) m.efficacyMag = .ok (.fin x) → x = f - α * t1 - β * t2 := by
  cases hP : m.getTwoLayerParameters R with
  | error e =>
    refine ⟨0, 0, fun t1 t2 f x h => ?_⟩
    simp only [IRM.calcNextRndt, hP, bind, Except.bind] at h
    cases h
  | ok P =>
    by_cases he : Arith.eq m.efficacyMag (Arith.ofNat 1) = true
    · refine ⟨P.lambda0.mag.val, P.lambda0.mag.val, fun t1 t2 f x h => ?_⟩
      simp only [IRM.calcNextRndt, hP, bind, Except.bind, he, if_true, pure, Except.pure, Except.ok.injEq] at h
      obtain ⟨a, b, h1, h2, rfl⟩ := XR.fin_of_sub h
      obtain ⟨c, d, h3, h4, rfl⟩ := XR.fin_of_sub h1
      obtain ⟨l, s, h5, h6, rfl⟩ := XR.fin_of_mul h4
      rw [XR.fin_add] at h6
      rw [h5]
      simp only [XR.ofNat_eq, XR.fin_inj, Nat.cast_zero] at h2 h3 h6
      subst h2 h3 h6
      simp only [XR.val]; ring
    · replace he : Arith.eq m.efficacyMag (Arith.ofNat 1) = false := by simpa using he
      cases hg : geoffroy R P.du P.dl P.lambda0 P.efficacy P.eta with
      | error e =>
        refine ⟨0, 0, fun t1 t2 f x h => ?_⟩
        simp only [IRM.calcNextRndt, hP, bind, Except.bind, he, Bool.false_eq_true, if_false, hg] at h
        cases h
      | ok gh =>
      cases h1 : Qty.nsub R (Arith.ofNat 1) gh.phi1 with
      | error e =>
        refine ⟨0, 0, fun t1 t2 f x h => ?_⟩
        simp only [IRM.calcNextRndt, hP, bind, Except.bind, he, Bool.false_eq_true, if_false, hg, h1] at h
        cases h
      | ok x1 =>
      cases h2 : Qty.nsub R (Arith.ofNat 1) gh.phi2 with
      | error e =>
        refine ⟨0, 0, fun t1 t2 f x h => ?_⟩
        simp only [IRM.calcNextRndt, hP, bind, Except.bind, he, Bool.false_eq_true, if_false, hg, h1, h2] at h
        cases h
      | ok x2 =>
      obtain ⟨κ, hκ⟩ : ∃ κ : ℝ, ∀ y : ℝ, (x2.unit + R.degC = x1.unit + R.degC ∨ R.compat (x2.unit + R.degC) (x1.unit + R.degC) = true) →
          Qty.magIn R ⟨.fin y, x2.unit + R.degC⟩ (x1.unit + R.degC) = .fin (κ * y) := by
        by_cases hu : x2.unit + R.degC = x1.unit + R.degC
        · exact ⟨1, fun y _ => by simp [Qty.magIn, hu]⟩
        · refine ⟨scaleOf L.scale (x2.unit + R.degC) / scaleOf L.scale (x1.unit + R.degC), fun y hy => ?_⟩
          rw [Qty.magIn, if_neg hu, L.conv_fin _ _ _ (hy.resolve_left hu)]
          congr 1; ring
      refine ⟨P.lambda0.mag.val + (P.eta.mag.val * (m.efficacyMag.val - 1)) * x1.mag.val,
        P.lambda0.mag.val + (P.eta.mag.val * (m.efficacyMag.val - 1)) * (κ * x2.mag.val), fun t1 t2 f x h => ?_⟩
      simp only [IRM.calcNextRndt, hP, bind, Except.bind, he, Bool.false_eq_true, if_false, hg, h1, h2] at h
      cases hs : (x1.mul ⟨.fin t1, R.degC⟩).add R (x2.mul ⟨.fin t2, R.degC⟩) with
      | error e => rw [hs] at h; cases h
      | ok s =>
      rw [hs] at h
      unfold Qty.add at hs
      by_cases hu : (x2.mul ⟨XR.fin t2, R.degC⟩).unit = (x1.mul ⟨XR.fin t1, R.degC⟩).unit ∨
          R.compat (x2.mul ⟨XR.fin t2, R.degC⟩).unit (x1.mul ⟨XR.fin t1, R.degC⟩).unit = true
      swap
      · rw [if_neg hu] at hs; cases hs
      rw [if_pos hu] at hs
      injection hs with hs
      subst hs
      replace hu : x2.unit + R.degC = x1.unit + R.degC ∨ R.compat (x2.unit + R.degC) (x1.unit + R.degC) = true := hu
      simp only at h
      split at h
      swap
      · cases h
      simp only [pure, Except.pure, Except.ok.injEq, Qty.mul, Qty.muln] at h
      obtain ⟨a, b, k1, k2, rfl⟩ := XR.fin_of_sub h
      obtain ⟨c, d, k3, k4, rfl⟩ := XR.fin_of_sub k1
      obtain ⟨l, s, k5, k6, rfl⟩ := XR.fin_of_mul k4
      obtain ⟨g, w, k7, k8, rfl⟩ := XR.fin_of_mul k2
      obtain ⟨η, ε, k9, k10, rfl⟩ := XR.fin_of_mul k7
      obtain ⟨e, o, k11, k12, rfl⟩ := XR.fin_of_sub k10
      obtain ⟨y1, y2, k13, k14, rfl⟩ := XR.fin_of_add k8
      obtain ⟨z1, z2, k15, k16, rfl⟩ := XR.fin_of_mul k13
      cases hx2 : x2.mag with
      | nan =>
        exfalso
        rw [hx2] at k14
        have : (XR.nan * XR.fin t2 : XR) = .nan := rfl
        rw [this, Qty.magIn] at k14
        split at k14
        · cases k14
        · next hne => rw [L.conv_nan _ _ (hu.resolve_left hne)] at k14; cases k14
      | fin z3 =>
        rw [hx2, XR.fin_mul, hκ _ hu] at k14
        rw [XR.fin_add] at k6
        rw [k5, k9, k11, k15]
        simp only [XR.ofNat_eq, XR.fin_inj, Nat.cast_one] at k3 k6 k12 k14 k16
        subst k3 k6 k12 k14 k16
        simp only [XR.val]; ring

/-- … and so in every run that succeeds -/
theorem IRM.uptake_linear {m : IRM N XR} {p : IRPar} (hc : m.Coherent R) (hp : m.Phys R p) : ∃ α β : ℝ,
    ∀ (d : DArg N XR) (n : ℕ) (F T1 T2 U : ℕ → ℝ), IsForcing R d n F → IRM.Produces R m d n T1 T2 U →
      (0 < n → U 0 = 0) ∧ ∀ i, i + 1 < n → U (i + 1) = F i - α * p.T1 F i - β * p.T2 F i := by
  obtain ⟨α, β, hl⟩ := IRM.nextRndt_linear L m
  refine ⟨α, β, fun d n F T1 T2 U hd h => ?_⟩
  have hbox := (IRM.boxes_val L hc hp hd h).1
  obtain ⟨m', hm', ho⟩ := h
  obtain ⟨vals', u', v, hg', rfl, hI⟩ := IRM.simulate_ok hm'
  obtain ⟨vals, u, rfl, hlen, -, hmF⟩ := hd.good L
  obtain ⟨h1, -⟩ := hg'
  cases h1
  rw [hmF] at hI
  simp only [IRM.outputs, IRM.setView, List.cons.injEq, Prod.mk.injEq, true_and, and_true] at ho
  obtain ⟨o1, o2, -, o4⟩ := ho
  have at_ : ∀ i < n, (m.eng R).seq (series n F) i = .ok (.fin (T1 i), .fin (T2 i), .fin (U i)) := by
    intro i hi
    obtain ⟨a, b, c, g1, g2, g3, g4⟩ := hI.done i (by omega)
    rw [o1, series_getElem? n T1 i hi] at g2
    rw [o2, series_getElem? n T2 i hi] at g3
    rw [o4, series_getElem? n U i hi] at g4
    cases g2; cases g3; cases g4
    exact g1
  refine ⟨fun h0 => ?_, fun i hi => ?_⟩
  · have := at_ 0 h0
    simp only [Eng.seq, Except.ok.injEq, Prod.mk.injEq] at this
    obtain ⟨-, -, this⟩ := this
    simpa using this.symm
  · have h2 := at_ (i + 1) hi
    simp only [Eng.seq, at_ i (by omega), getAt, series_getElem? n F i (by omega)] at h2
    split at h2
    · cases h2
    split at h2
    · cases h2
    split at h2
    · cases h2
    rename_i c hc'
    injection h2 with h2
    simp only [Prod.mk.injEq] at h2
    obtain ⟨-, -, rfl⟩ := h2
    obtain ⟨e1, e2⟩ := hbox i (by omega)
    rw [← e1, ← e2]
    exact hl _ _ _ _ hc'
end
end TwoLayer
