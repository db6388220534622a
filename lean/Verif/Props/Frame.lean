import Verif.Proofs.Frame
import Verif.Props.ScenarioExamples

/-!
# C98: shape of the frame `run_scenarios` returns

`ScmRun.WellFormed` (`Spec/Scenarios.lean`): all series have the same metadata columns, none twice, and one value
(possibly NaN) per time.
-/

set_option linter.unusedSimpArgs false
set_option linter.unusedSectionVars false

namespace TwoLayer
open Cal
section
variable {N α : Type} [Fintype N] [DecidableEq N] [Arith α] [DecidableEq α] {R : Registry N α}

/-- The frame the two-layer model returns is a well-formed `ScmRun` with pairwise different metadata; its times are, in the
order of the input, exactly those at which some selected series has a value. -/
theorem C98_two_layer (D : R.Dimensional) {m m' : TLM N α} (hm : TLM.Reachable R m) {dv : String} {scen out : ScmRun α}
    (hw : scen.WellFormed) (hrun : runScenarios (TLM.variant R) R dv scen m = (m', .ok out)) {sel : List (Row α)}
    (hsel : Selection dv scen.rows sel) :
    out.WellFormed ∧ (out.rows.map Row.info).Nodup ∧ out.times.Sublist scen.times ∧
    ∀ t, t ∈ out.times ↔ ∃ i : Nat, scen.times[i]? = some t ∧ ∃ r ∈ sel, ∃ x, r.vals[i]? = some x ∧ Arith.isNaN x = false := by
  obtain ⟨h1, h2⟩ := (TLM.laws D).frame_wellFormed (TLM.Reachable.coherent R D hm) hw hrun hsel
  refine ⟨h1, ?_, h2⟩
  rw [List.nodup_iff_pairwise_ne, List.pairwise_map, List.pairwise_iff_getElem]
  intro a b ha hb hab he
  obtain ⟨c, hc⟩ := (TLM.laws D).distinct (TLM.Reachable.coherent R D hm) hrun hab.ne (List.getElem?_eq_getElem ha)
    (List.getElem?_eq_getElem hb)
  rw [he] at hc
  exact hc rfl

/-- The same for the impulse response model. -/
theorem C98_impulse_response (D : R.Dimensional) {m m' : IRM N α} (hm : IRM.Reachable R m) {dv : String}
    {scen out : ScmRun α} (hw : scen.WellFormed) (hrun : runScenarios (IRM.variant R) R dv scen m = (m', .ok out))
    {sel : List (Row α)} (hsel : Selection dv scen.rows sel) :
    out.WellFormed ∧ (out.rows.map Row.info).Nodup ∧ out.times.Sublist scen.times ∧
    ∀ t, t ∈ out.times ↔ ∃ i : Nat, scen.times[i]? = some t ∧ ∃ r ∈ sel, ∃ x, r.vals[i]? = some x ∧ Arith.isNaN x = false := by
  obtain ⟨h1, h2⟩ := (IRM.laws D).frame_wellFormed (IRM.Reachable.coherent R hm) hw hrun hsel
  refine ⟨h1, ?_, h2⟩
  rw [List.nodup_iff_pairwise_ne, List.pairwise_map, List.pairwise_iff_getElem]
  intro a b ha hb hab he
  obtain ⟨c, hc⟩ := (IRM.laws D).distinct (IRM.Reachable.coherent R hm) hrun hab.ne (List.getElem?_eq_getElem ha)
    (List.getElem?_eq_getElem hb)
  rw [he] at hc
  exact hc rfl

/-- The two models return the same time axis and the same forcing for the same input, whatever their parameters and
histories. -/
theorem C98_same_axis (D : R.Dimensional) {m m' : TLM N α} (hm : TLM.Reachable R m) {m2 m2' : IRM N α}
    (hm2 : IRM.Reachable R m2) {dv : String} {scen out out2 : ScmRun α}
    (hrun : runScenarios (TLM.variant R) R dv scen m = (m', .ok out))
    (hrun2 : runScenarios (IRM.variant R) R dv scen m2 = (m2', .ok out2)) {sel : List (Row α)}
    (hsel : Selection dv scen.rows sel) :
    out.times = out2.times ∧ ∀ (i : Nat) (s : Row α), sel[i]? = some s → ∃ r r2 : Row α,
      out.rows[4 * i]? = some r ∧ out2.rows[5 * i]? = some r2 ∧ r.vals = r2.vals ∧
      r.info.get "variable" = s.info.get "variable" ∧ r2.info.get "variable" = s.info.get "variable" := by
  obtain ⟨_, _, -, -, -, b1⟩ := TLM.runs_by_hand D hm hrun hsel
  obtain ⟨_, _, -, -, -, b2⟩ := IRM.runs_by_hand D hm2 hrun2 hsel
  have hs := (selection_iff dv _ _).mp hsel
  subst hs
  obtain ⟨h1, -, h2⟩ := (TLM.laws D).frame (TLM.Reachable.coherent R D hm) hrun
  obtain ⟨h3, -, h4⟩ := (IRM.laws D).frame (IRM.Reachable.coherent R hm2) hrun2
  refine ⟨h1.trans h3.symm, fun i s hs => ?_⟩
  obtain ⟨r, e1, e2⟩ := h2 i s hs
  obtain ⟨r2, e3, e4⟩ := h4 i s hs
  obtain ⟨_, _, _, -, -, -, ⟨r', f1, f2, -⟩, -⟩ := b1 i s hs
  obtain ⟨_, _, _, -, -, -, ⟨r2', f3, f4, -⟩, -⟩ := b2 i s hs
  have e1' : out.rows[4 * i]? = some r := e1
  have e3' : out2.rows[5 * i]? = some r2 := e3
  rw [e1'] at f1; cases f1
  rw [e3'] at f3; cases f3
  exact ⟨r, r2, e1', e3', e2.trans e4.symm, f2.variable_ok, f4.variable_ok⟩

end

/-- The hypotheses hold for the frame `Ex.scen`, whose first selected series has no value in 2000 and whose second has one,
on objects of both classes. -/
example : ∃ m m' out m2 m2' out2, TLM.Reachable U0.reg m ∧ IRM.Reachable U0.reg m2 ∧ Ex.scen.WellFormed ∧
    Selection defaultDriverVar Ex.scen.rows [Ex.rowA, Ex.rowB] ∧
    runScenarios (TLM.variant U0.reg) U0.reg defaultDriverVar Ex.scen m = (m', .ok out) ∧
    runScenarios (IRM.variant U0.reg) U0.reg defaultDriverVar Ex.scen m2 = (m2', .ok out2) := by
  obtain ⟨m, m', out, h1, -, h2⟩ := Ex.runs
  obtain ⟨m2, m2', out2, h3, -, -, -, h4⟩ := Ex.runs_impulse_response
  exact ⟨m, m', out, m2, m2', out2, h1, h3, Ex.wellFormed, Ex.selection, h2, h4⟩
end TwoLayer
