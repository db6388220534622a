import Verif.Proofs.InterruptAgain
import Verif.Proofs.Init
import Verif.Proofs.IRMath

/-! # What an impulse response object with a half-made assignment computes -/

set_option linter.unusedSimpArgs false
set_option linter.unusedSectionVars false

namespace TwoLayer
variable {N : Type} [Fintype N] [DecidableEq N] {R : Registry N XR} (L : R.Lawful)
include L

theorem IRM.produces_of_seq {m : IRM N XR} {d : DArg N XR} {n : ℕ} (hn : n ≠ 0) {F A B C : ℕ → ℝ} (hd : IsForcing R d n F)
    (hseq : ∀ i < n, (m.eng R).seq (series n F) i = .ok (.fin (A i), .fin (B i), .fin (C i))) :
    IRM.Produces R m d n A B C := by
  obtain ⟨vals, u, rfl, hlen, hg, hmF⟩ := hd.good L
  have hsim := IRM.simulate_good R m (hg hn)
  obtain ⟨v, hv, hI⟩ := (IRM.stepper R).times_ok (m.ready R vals u) (modelF R vals u) rfl vals.length (by simp)
    (fun i hi => ⟨_, by rw [hmF]; exact hseq i (by omega)⟩)
  refine ⟨_, hsim.trans hv, ?_⟩
  rw [hmF] at hI
  have key : ∀ i < n, v.A[i]? = some (.fin (A i)) ∧ v.B[i]? = some (.fin (B i)) ∧ v.C[i]? = some (.fin (C i)) := by
    intro i hi
    obtain ⟨a, b, c, h1, h2, h3, h4⟩ := hI.done i (by omega)
    have h1' : (m.eng R).seq (series n F) i = .ok (a, b, c) := h1
    rw [hseq i hi] at h1'
    cases h1'
    exact ⟨h2, h3, h4⟩
  have lA := hI.lA; have lB := hI.lB; have lC := hI.lC
  rw [series_length] at lA lB lC
  have hA := eq_series lA fun i hi => (key i hi).1
  have hB := eq_series lB fun i hi => (key i hi).2.1
  have hC := eq_series lC fun i hi => (key i hi).2.2
  simp only [IRM.outputs, IRM.stepper, IRM.setView]
  rw [hA, hB, hC]
  have hs : List.zipWith (· + ·) (series n A) (series n B) = series n fun i => A i + B i := by
    apply eq_series (by simp [series_length])
    intro i hi
    rw [List.getElem?_zipWith, series_getElem? _ _ _ hi, series_getElem? _ _ _ hi]
    rfl
  rw [hs]

/-- heat uptake with the parameters `p'` from the temperatures with the parameters `p` -/
noncomputable def IRPar.Umix (p p' : IRPar) (κ : ℝ) (F : ℕ → ℝ) : ℕ → ℝ
  | 0 => 0
  | i + 1 => p'.uptake κ (p.T1 F i) (p.T2 F i) (F i)

/-- `q1` assigned, its cached number not yet -/
theorem IRM.torn_q1 {m : IRM N XR} (hm : m.Coherent R) {p : IRPar} (hp : m.Phys R p) (hok : p.Boxes) {q : Qty N XR} {x κ : ℝ}
    (hx : 0 < x) (hq : IsNum R q R.cwm2 x) (hκ : IsNum R ⟨.fin 1, q.unit⟩ R.cwm2 κ) {d : DArg N XR} {n : ℕ} (hn : n ≠ 0)
    {F : ℕ → ℝ} (hd : IsForcing R d n F) (hu : IRM.UnitsOk R m p.e ∨ n ≤ 1) :
    IRM.Produces R { m with q1 := q } d n (p.T1 F) (p.T2 F) (p.Umix { p with q1 := x } κ F) := by
  have hc : ({ m with q1 := q, q1Mag := q.magIn R R.cwm2 } : IRM N XR).Coherent R := { hm with q1Mag := rfl, q1Unit := (L.unitOk_iff _ _).mpr (L.isNum_iff.mp hq).2 }
  · have hp' : ({ m with q1 := q, q1Mag := q.magIn R R.cwm2 } : IRM N XR).Phys R { p with q1 := x } :=
      ⟨hq, hp.q2, hp.d1, hp.d2, hp.efficacy, hp.dt⟩
    have hok' : ({ p with q1 := x } : IRPar).Boxes := ⟨hx, hok.q2, hok.d1, hok.d2, hok.ne, hok.e⟩
    refine IRM.produces_of_seq L hn hd ?_
    have e1 : m.core.deltaTMag = .fin p.dt := by rw [hm.core.dtMag]; exact hp.dt.magIn
    have e2 : m.q1Mag = .fin p.q1 := by rw [hm.q1Mag]; exact hp.q1.magIn
    have e3 : m.q2Mag = .fin p.q2 := by rw [hm.q2Mag]; exact hp.q2.magIn
    have e4 : m.d1Mag = .fin p.d1 := by rw [hm.d1Mag]; exact hp.d1.magIn
    have e5 : m.d2Mag = .fin p.d2 := by rw [hm.d2Mag]; exact hp.d2.magIn
    intro i
    induction i with
    | zero => intro _; simp [Eng.seq, IRPar.Umix]
    | succ i ih =>
      intro hi
      have key := (IRM.nextRndt' L hc hp' hok' hκ (p.T1 F i) (p.T2 F i) (F i)).1 (hu.resolve_right (by omega))
      have hr : ({ m with q1 := q } : IRM N XR).calcNextRndt R (.fin (p.T1 F i)) (.fin (p.T2 F i)) (.fin (F i)) m.efficacyMag
        = .ok (.fin (IRPar.uptake { p with q1 := x } κ (p.T1 F i) (p.T2 F i) (F i))) := key
      simp only [Eng.seq, ih (by omega), getAt, series_getElem? n F i (by omega)]
      have a1 : (IRM.eng R { m with q1 := q }).nA (.fin (p.T1 F i)) (.fin (p.T2 F i)) (.fin (F i)) = .ok (.fin (p.T1 F (i + 1))) := by
        simp only [IRM.eng, e1, e2, e4, calcNextTemp_fin hok.d1.ne']; rfl
      have a2 : (IRM.eng R { m with q1 := q }).nB (.fin (p.T1 F i)) (.fin (p.T2 F i)) (.fin (F i)) = .ok (.fin (p.T2 F (i + 1))) := by
        simp only [IRM.eng, e1, e3, e5, calcNextTemp_fin hok.d2.ne']; rfl
      have a3 : ∀ a b, (IRM.eng R { m with q1 := q }).nC (.fin (p.T1 F i)) (.fin (p.T2 F i)) a b (.fin (F i)) =
          .ok (.fin (p.Umix { p with q1 := x } κ F (i + 1))) := fun _ _ => hr
      simp only [a1, a2, a3]

end TwoLayer
