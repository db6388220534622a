import Verif.Proofs.Simulate

/-! # Runs depend only on the numbers the object integrates with -/

set_option linter.unusedSimpArgs false
set_option linter.unusedSectionVars false

namespace TwoLayer
variable {α : Type} [Arith α]

theorem Stepper.times_congr {σ τ : Type} (S : Stepper σ α) (S' : Stepper τ α) (s : σ) (s' : τ) (F : List α)
    (hs : S.view s = View.fresh F) (hs' : S'.view s' = View.fresh F) (he : S.eng s = S'.eng s') :
    ∀ k ≤ F.length, ∃ v r, Py.times S.step k s = (S.setView s v, r) ∧ Py.times S'.step k s' = (S'.setView s' v, r) ∧
      (r = .ok () → View.Inv (S.eng s) F k v) := by
  intro k
  induction k with
  | zero =>
    intro _
    refine ⟨View.fresh F, .ok (), ?_, ?_, fun _ => View.fresh_inv _ _⟩
    · rw [← hs, S.setView_view]; rfl
    · rw [← hs', S'.setView_view]; rfl
  | succ k ih =>
    intro hk
    obtain ⟨v, r, h1, h2, h3⟩ := ih (by omega)
    rw [Py.times_snoc, Py.times_snoc, h1, h2]
    cases r with
    | error e => exact ⟨v, .error e, rfl, rfl, fun h => by cases h⟩
    | ok u =>
      have hI := h3 rfl
      have hvv : S.view (S.setView s v) = v := S.view_setView _ _ (by rw [hs, hI.hF]; rfl)
      have hvv' : S'.view (S'.setView s' v) = v := S'.view_setView _ _ (by rw [hs', hI.hF]; rfl)
      have hwf : v.WF := ⟨by rw [hI.lB, hI.lA], by rw [hI.lC, hI.lA]⟩
      have hidx : nextIdx v.idx < v.A.length := by rw [hI.next_idx, hI.lA]; omega
      simp only
      rw [S.step_eq _ (by rw [hvv]; exact hwf) (by rw [hvv]; exact hidx),
        S'.step_eq _ (by rw [hvv']; exact hwf) (by rw [hvv']; exact hidx), hvv, hvv', S.eng_setView, S'.eng_setView,
        S.setView_setView, S'.setView_setView, ← he]
      refine ⟨_, _, rfl, rfl, fun hr => ?_⟩
      cases hq : (S.eng s).seq F k with
      | ok x =>
        obtain ⟨v', h4, h5⟩ := hI.step_ok (by omega) hq
        rw [h4]; exact h5
      | error x =>
        obtain ⟨v', h4⟩ := hI.step_error (by omega) hq
        rw [h4] at hr; cases hr

variable {N : Type} [Fintype N] [DecidableEq N]

/-- two-layer objects with the same numbers and drivers with the same magnitudes: same outcome, same outputs -/
theorem TLM.simulate_congr (R : Registry N α) {m m' : TLM N α} (he : m.eng = m'.eng) {d d' : DArg N α}
    {vals vals' : List α} {u u' : Units N} (hd : GoodDrivers R d vals u) (hd' : GoodDrivers R d' vals' u')
    (hF : modelF R vals u = modelF R vals' u') :
    (simulate R d m).2 = (simulate R d' m').2 ∧ (simulate R d m).1.outputs = (simulate R d' m').1.outputs := by
  have hlen : vals.length = vals'.length := by rw [← modelF_length R vals u, hF, modelF_length]
  rw [simulate_good R m hd, simulate_good R m' hd', ← hlen]
  obtain ⟨v, r, h1, h2, -⟩ := TLM.stepper.times_congr TLM.stepper (m.ready R vals u) (m'.ready R vals' u')
    (modelF R vals u) rfl (by rw [hF]; rfl) (by exact he) vals.length (by simp)
  have h1' : Py.times TLM.step vals.length (m.ready R vals u) = _ := h1
  have h2' : Py.times TLM.step vals.length (m'.ready R vals' u') = _ := h2
  rw [h1', h2']
  exact ⟨rfl, rfl⟩

/-- the same for impulse response objects -/
theorem IRM.simulate_congr (R : Registry N α) {m m' : IRM N α} (he : m.eng R = m'.eng R) {d d' : DArg N α}
    {vals vals' : List α} {u u' : Units N} (hd : GoodDrivers R d vals u) (hd' : GoodDrivers R d' vals' u')
    (hF : modelF R vals u = modelF R vals' u') :
    (simulate R d m).2 = (simulate R d' m').2 ∧ (simulate R d m).1.outputs = (simulate R d' m').1.outputs := by
  have hlen : vals.length = vals'.length := by rw [← modelF_length R vals u, hF, modelF_length]
  rw [simulate_good R m hd, simulate_good R m' hd', ← hlen]
  obtain ⟨v, r, h1, h2, -⟩ := (IRM.stepper R).times_congr (IRM.stepper R) (m.ready R vals u) (m'.ready R vals' u')
    (modelF R vals u) rfl (by rw [hF]; rfl) (by exact he) vals.length (by simp)
  have h1' : Py.times (IRM.step R) vals.length (m.ready R vals u) = _ := h1
  have h2' : Py.times (IRM.step R) vals.length (m'.ready R vals' u') = _ := h2
  rw [h1', h2']
  exact ⟨rfl, rfl⟩

end TwoLayer
