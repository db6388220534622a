import Verif.Props.Missing
import Verif.Props.Units

/-!
# Concrete cases for C47–C56, C60, and the counterexample of C53
-/

set_option linter.unusedSimpArgs false
set_option linter.unusedSectionVars false

namespace TwoLayer
open Cal
namespace Ex

/-- a row of input metadata -/
def info (scenario variable_ region unit : String) : Meta XR :=
  [("model", .str "idealised"), ("scenario", .str scenario), ("variable", .str variable_), ("region", .str region),
    ("unit", .str unit)]

/-- 2000-01-01, 2001-01-01, 2002-01-01 -/
def years : List Int := [946684800, 978307200, 1009843200]

/-- forcing in W/m² whose first value is missing -/
def rowA : Row XR := ⟨info "a" "Effective Radiative Forcing" "World" "W/m^2", [.nan, .fin 1, .fin 2]⟩
/-- forcing in kW/m² -/
def rowB : Row XR := ⟨info "b" "Effective Radiative Forcing" "World" "kW/m^2", [.fin 1, .fin 2, .fin 3]⟩
/-- another region -/
def rowC : Row XR := ⟨info "b" "Effective Radiative Forcing" "World|Land" "W/m^2", [.fin 1, .fin 2, .fin 3]⟩
/-- another variable -/
def rowD : Row XR := ⟨info "b" "Emissions|CO2" "World" "K", [.fin 1, .fin 2, .fin 3]⟩
/-- forcing with a gap -/
def rowG : Row XR := ⟨info "g" "Effective Radiative Forcing" "World" "W/m^2", [.fin 1, .nan, .fin 3]⟩

/-- four series, two of them to be run -/
def scen : ScmRun XR := ⟨years, [rowA, rowC, rowB, rowD]⟩
/-- one series with a gap -/
def gap : ScmRun XR := ⟨years, [rowG]⟩

theorem wellFormed : scen.WellFormed := by
  refine ⟨?_, ?_, ?_⟩
  · intro r hr r' hr'
    simp only [scen, List.mem_cons, List.not_mem_nil, or_false] at hr hr'
    rcases hr with rfl | rfl | rfl | rfl <;> rcases hr' with rfl | rfl | rfl | rfl <;> rfl
  · intro r hr
    simp only [scen, List.mem_cons, List.not_mem_nil, or_false] at hr
    rcases hr with rfl | rfl | rfl | rfl <;> simp [rowA, rowB, rowC, rowD, info]
  · intro r hr
    simp only [scen, List.mem_cons, List.not_mem_nil, or_false] at hr
    rcases hr with rfl | rfl | rfl | rfl <;> rfl

theorem gap_wellFormed : gap.WellFormed := by
  refine ⟨?_, ?_, ?_⟩
  · intro r hr r' hr'
    simp only [gap, List.mem_cons, List.not_mem_nil, or_false] at hr hr'
    subst hr; subst hr'; rfl
  · intro r hr
    simp only [gap, List.mem_cons, List.not_mem_nil, or_false] at hr
    subst hr; simp [rowG, info]
  · intro r hr
    simp only [gap, List.mem_cons, List.not_mem_nil, or_false] at hr
    subst hr; rfl

theorem selected (s u : String) (vals : List XR) :
    Selected defaultDriverVar ⟨info s "Effective Radiative Forcing" "World" u, vals⟩ :=
  ⟨⟨_, rfl, (C49_plain (by decide) _).mpr rfl⟩, rfl⟩

theorem not_selectedC : ¬ Selected defaultDriverVar rowC := by
  rintro ⟨-, h⟩
  simp [rowC, info, Meta.get] at h

theorem not_selectedD : ¬ Selected defaultDriverVar rowD := by
  rintro ⟨⟨v, h1, h2⟩, -⟩
  rw [C49_plain (by decide)] at h2
  subst h2
  simp [rowD, info, Meta.get, defaultDriverVar] at h1

theorem selection : Selection defaultDriverVar scen.rows [rowA, rowB] := by
  rw [selection_iff]
  have hA : selects defaultDriverVar rowA = true := (selects_iff _ _).mpr (selected _ _ _)
  have hB : selects defaultDriverVar rowB = true := (selects_iff _ _).mpr (selected _ _ _)
  have hC : selects defaultDriverVar rowC = false := by
    rw [← Bool.not_eq_true]; exact fun h => not_selectedC ((selects_iff _ _).mp h)
  have hD : selects defaultDriverVar rowD = false := by
    rw [← Bool.not_eq_true]; exact fun h => not_selectedD ((selects_iff _ _).mp h)
  simp [scen, hA, hB, hC, hD]

theorem gap_selection : Selection defaultDriverVar gap.rows [rowG] := by
  rw [selection_iff]
  have hG : selects defaultDriverVar rowG = true := (selects_iff _ _).mpr (selected _ _ _)
  simp [gap, hG]

theorem yearly : YearlyAxis daysBeforeYear years :=
  (C51_select isJan1_daysBeforeYear years).1.mp (by decide)

theorem distinguishable {N : Type} [Fintype N] [DecidableEq N] (R : Registry N XR) (ps : List (String × Qty N XR)) :
    Distinguishable R ps rowA rowB ∧ Distinguishable R ps rowB rowA := by
  refine ⟨⟨"scenario", by decide, fun p _ => (Variant.Laws.paramColumn_ne R p (by decide)).symm, ?_⟩,
    ⟨"scenario", by decide, fun p _ => (Variant.Laws.paramColumn_ne R p (by decide)).symm, ?_⟩⟩ <;>
  simp [rowA, rowB, info, Meta.get]

theorem kw_ok : U0.kwU = U0.reg.wm2 ∨ U0.reg.compat U0.kwU U0.reg.wm2 = true := by
  have := (U0.kw_num 1).unitOk
  exact this

/-- `TwoLayerModel().run_scenarios(scen)` succeeds, on an object that has already run something else -/
theorem runs : ∃ m m' out, TLM.Reachable U0.reg m ∧ m.Phys U0.reg TLPar.default ∧
    runScenarios (TLM.variant U0.reg) U0.reg defaultDriverVar scen m = (m', .ok out) := by
  obtain ⟨m, hm, hp, -⟩ := TLM.default_run U0.lawful
  suffices h : ∃ m' out, runScenarios (TLM.variant U0.reg) U0.reg defaultDriverVar scen m = (m', .ok out) by
    obtain ⟨m', out, h⟩ := h
    exact ⟨m, m', out, hm, hp, h⟩
  refine (C47_two_layer_succeeds_iff U0.lawful.toDimensional hm wellFormed selection
    isJan1_daysBeforeYear).mpr ⟨by simp, Or.inl yearly, ?_, ?_⟩
  · intro i j r r' hij hi hj
    have h1 : i < 2 := (List.getElem?_eq_some_iff.mp hi).1
    have h2 : j < 2 := (List.getElem?_eq_some_iff.mp hj).1
    obtain ⟨d1, d2⟩ := distinguishable U0.reg m.pub.params
    interval_cases i <;> interval_cases j
    · exact absurd rfl hij
    · simp at hi hj; subst hi; subst hj; exact d1
    · simp at hi hj; subst hi; subst hj; exact d2
    · exact absurd rfl hij
  · intro r hr
    simp only [List.mem_cons, List.not_mem_nil, or_false] at hr
    rcases hr with rfl | rfl
    · refine ⟨⟨.fin 1, by simp [rowA], rfl⟩, ⟨"W/m^2", U0.reg.wm2, rfl, by rfl, Or.inl rfl⟩, ?_, ?_, ?_⟩ <;>
        simp [rowA, info, Meta.get]
    · refine ⟨⟨.fin 1, by simp [rowB], rfl⟩, ⟨"kW/m^2", U0.kwU, rfl, by rfl, kw_ok⟩, ?_, ?_, ?_⟩ <;>
        simp [rowB, info, Meta.get]

end Ex

/-- The hypotheses of C47, C48, C50, C51, C54, C56 hold in a concrete case. -/
example : ∃ m m' out, TLM.Reachable U0.reg m ∧ m.Phys U0.reg TLPar.default ∧ Ex.scen.WellFormed ∧
    Selection defaultDriverVar Ex.scen.rows [Ex.rowA, Ex.rowB] ∧ YearlyAxis daysBeforeYear Ex.scen.times ∧
    runScenarios (TLM.variant U0.reg) U0.reg defaultDriverVar Ex.scen m = (m', .ok out) ∧ out.rows.length = 8 := by
  obtain ⟨m, m', out, h1, h2, h3⟩ := Ex.runs
  obtain ⟨ts, m₁, -, -, h4, -⟩ := TLM.runs_by_hand U0.lawful.toDimensional h1 h3 Ex.selection
  exact ⟨m, m', out, h1, h2, Ex.wellFormed, Ex.selection, Ex.yearly, h3, by simpa using h4⟩


/-- The hypotheses of C55 hold in it: every year is used by a selected series, and the default `driver_var` matches no
output. -/
example : (∀ i, i < Ex.scen.times.length → ∃ r ∈ Ex.scen.rows, Selected defaultDriverVar r ∧
      ∃ x, r.vals[i]? = some x ∧ Arith.isNaN x = false) ∧
    (∀ v ∈ ["Surface Temperature|Upper", "Surface Temperature|Lower", "Heat Uptake", "Surface Temperature|Box 1",
      "Surface Temperature|Box 2", "Surface Temperature"], ¬ Glob defaultDriverVar.toList v.toList) ∧
    Arith.isNaN (Arith.nan : XR) = true := by
  refine ⟨?_, ?_, rfl⟩
  · intro i hi
    have hi : i < 3 := hi
    refine ⟨Ex.rowB, by simp [Ex.scen], Ex.selected _ _ _, ?_⟩
    interval_cases i
    · exact ⟨.fin 1, rfl, rfl⟩
    · exact ⟨.fin 2, rfl, rfl⟩
    · exact ⟨.fin 3, rfl, rfl⟩
  · intro v hv
    rw [C49_plain (by decide)]
    rintro rfl
    simp [defaultDriverVar] at hv

/-- The hypotheses of C53 and C60 hold in it: series A has its values at positions 1 and 2 and is missing in 2000; series
B, in kW/m², has the values 1000, 2000, 3000 W/m². -/
example : PresentOn Ex.rowA.vals 1 2 ∧ HasValue Ex.scen.times Ex.rowA.vals 946684800 XR.nan ∧ Ex.scen.times.Nodup ∧
    PresentOn Ex.rowB.vals 0 3 ∧ Ex.rowB.info.get "unit" = some (.str "kW/m^2") ∧
    U0.reg.parse "kW/m^2" = some U0.kwU ∧
    ∀ k : ℕ, k < 3 → ∃ x, Ex.rowB.vals[0 + k]? = some x ∧ IsNum U0.reg ⟨x, U0.kwU⟩ U0.reg.wm2 (((k : ℝ) + 1) * 1000) := by
  refine ⟨⟨by simp [Ex.rowA], ?_⟩, ⟨0, rfl, rfl⟩, by decide, ⟨by simp [Ex.rowB], ?_⟩, rfl, rfl, ?_⟩
  · intro i d hi
    have : i < 3 := (List.getElem?_eq_some_iff.mp hi).1
    interval_cases i <;> simp [Ex.rowA] at hi <;> subst hi <;> simp
  · intro i d hi
    have : i < 3 := (List.getElem?_eq_some_iff.mp hi).1
    interval_cases i <;> simp [Ex.rowB] at hi <;> subst hi <;> simp
  · intro k hk
    interval_cases k
    · exact ⟨_, rfl, by simpa using U0.kw_num 1⟩
    · exact ⟨_, rfl, by have := U0.kw_num 2; norm_num at this ⊢; exact this⟩
    · exact ⟨_, rfl, by have := U0.kw_num 3; norm_num at this ⊢; exact this⟩

/-- **C53 fails for gaps.**  Forcing is 1 W/m² in 2000, missing in 2001 and 3 W/m² in 2002.  The temperature reported for
2002, two years after the start, is the temperature after a single step of one year. -/
theorem C53_counterexample : ∃ m m' out rT x, TLM.Reachable U0.reg m ∧ m.Phys U0.reg TLPar.default ∧
    runScenarios (TLM.variant U0.reg) U0.reg defaultDriverVar Ex.gap m = (m', .ok out) ∧ out.rows[1]? = some rT ∧
    rT.info.get "variable" = some (.str "Surface Temperature|Upper") ∧
    HasValue out.times rT.vals 946684800 (XR.fin 0) ∧ HasValue out.times rT.vals 1009843200 (XR.fin x) ∧
    TLPar.default.C * ((x - 0) / 31557600) = 1 := by
  obtain ⟨m, hm, hp, -⟩ := TLM.default_run U0.lawful
  have h : ∃ m' out, runScenarios (TLM.variant U0.reg) U0.reg defaultDriverVar Ex.gap m = (m', .ok out) := by
    refine (C47_two_layer_succeeds_iff U0.lawful.toDimensional hm Ex.gap_wellFormed Ex.gap_selection
      isJan1_daysBeforeYear).mpr ⟨by simp, Or.inl Ex.yearly, ?_, ?_⟩
    · intro i j r r' hij hi hj
      have h1 : i < 1 := (List.getElem?_eq_some_iff.mp hi).1
      have h2 : j < 1 := (List.getElem?_eq_some_iff.mp hj).1
      omega
    · intro r hr
      simp only [List.mem_cons, List.not_mem_nil, or_false] at hr
      subst hr
      refine ⟨⟨.fin 1, by simp [Ex.rowG], rfl⟩, ⟨"W/m^2", U0.reg.wm2, rfl, by rfl, Or.inl rfl⟩, ?_, ?_, ?_⟩ <;>
        simp [Ex.rowG, Ex.info, Meta.get]
  obtain ⟨m', out, h⟩ := h
  obtain ⟨ts, m₁, h1, h2, -, hr⟩ := TLM.runs_by_hand U0.lawful.toDimensional hm h Ex.gap_selection
  obtain ⟨us, u, m₂, g1, g2, g3, -, ⟨rT, a1, a2, a3⟩, -⟩ := hr 0 Ex.rowG rfl
  have e1 : Ex.rowG.info.get "unit" = some (.str "W/m^2") := rfl
  rw [e1] at g1
  cases g1
  have hu : u = U0.reg.wm2 := by
    have : U0.reg.parse "W/m^2" = some U0.reg.wm2 := rfl
    rw [this] at g2; cases g2; rfl
  subst hu
  obtain ⟨hreach, hphys⟩ := TLM.setDt_phys U0.lawful hm hp h1 h2 isJan1_daysBeforeYear (dt := 31557600) (fun _ => rfl)
    (fun hn => absurd Ex.yearly hn)
  have epres : present Ex.rowG.vals = [.fin 1, .fin 3] := by simp [present, Ex.rowG]
  have hd : IsForcing U0.reg (.qty ⟨1, present Ex.rowG.vals⟩ U0.reg.wm2) 2 (fun i => if i = 0 then 1 else 3) := by
    rw [epres]
    refine ⟨_, _, rfl, rfl, ?_⟩
    intro i hi
    simp only [List.length_cons, List.length_nil] at hi
    interval_cases i
    · simpa using isNum_self (R := U0.reg) 1 U0.reg.wm2
    · simpa using isNum_self (R := U0.reg) 3 U0.reg.wm2
  obtain ⟨T, TD, U, ⟨m₃, k1, k2⟩, k3, -⟩ := C15_two_layer_exists_unique U0.lawful hreach hphys
    ⟨TLPar.default_ok.C, TLPar.default_ok.D, by norm_num⟩ (by norm_num) hd
  rw [g3] at k1
  have : m₂ = m₃ := (Prod.mk.inj k1).1
  subst this
  simp only [TLM.outputs, List.cons.injEq, Prod.mk.injEq, true_and, and_true] at k2
  obtain ⟨e1, -, -⟩ := k2
  obtain ⟨q1, q2⟩ := k3
  obtain ⟨T0, D0, -⟩ := q1 (by norm_num)
  obtain ⟨s1, -, -⟩ := q2 0 (by norm_num)
  obtain ⟨x0, b1, b2⟩ := a3.here 0 946684800 (.fin 1) rfl rfl rfl
  obtain ⟨x2, b3, b4⟩ := a3.here 2 1009843200 (.fin 3) rfl rfl rfl
  have p0 : presentBefore Ex.rowG.vals 0 = 0 := by simp [presentBefore, present]
  have p2 : presentBefore Ex.rowG.vals 2 = 1 := by simp [presentBefore, present, Ex.rowG]
  rw [p0, e1] at b1
  rw [p2, e1] at b3
  simp [series] at b1 b3
  subst b1; subst b3
  refine ⟨m, m', out, rT, T 1, hm, hp, h, a1, a2.variable_ok, by rw [← T0]; exact b2, b4, ?_⟩
  simp only [zero_add, T0, D0, if_pos] at s1
  simpa using s1

/-- `ImpulseResponseModel().run_scenarios(scen)` succeeds. -/
theorem Ex.runs_impulse_response : ∃ m m' out, IRM.Reachable U0.reg m ∧ m.Phys U0.reg IRPar.default ∧ IRPar.default.Ok ∧
    IsNum U0.reg ⟨.fin 1, m.q1.unit⟩ U0.reg.cwm2 1 ∧
    runScenarios (IRM.variant U0.reg) U0.reg defaultDriverVar Ex.scen m = (m', .ok out) := by
  obtain ⟨m, hm, hp, u1, u2, u3, -⟩ := IRM.default_run U0.lawful
  suffices h : ∃ m' out, runScenarios (IRM.variant U0.reg) U0.reg defaultDriverVar Ex.scen m = (m', .ok out) by
    obtain ⟨m', out, h⟩ := h
    exact ⟨m, m', out, hm, hp, IRPar.default_ok, by rw [u1]; exact isNum_self _ _, h⟩
  have hy : selectTimestep Ex.years = .ok .yearly := by decide
  have hsd := IRM.setDeltaT_good (R := U0.reg) (q := Timestep.qty U0.reg .yearly) (Or.inl rfl) m
  obtain ⟨hreach, hphys, hm1⟩ := IRM.setDt_phys U0.lawful hm hp hy hsd isJan1_daysBeforeYear (dt := 1) (fun _ => rfl)
    (fun hn => absurd Ex.yearly hn)
  have hok : ({ IRPar.default with dt := 1 } : IRPar).Ok := ⟨IRPar.default_ok.q1, IRPar.default_ok.q2, IRPar.default_ok.d1,
    IRPar.default_ok.d2, IRPar.default_ok.e⟩
  have run : ∀ {vals : List XR} {u : Units U0} {n : ℕ} {F : ℕ → ℝ}, 1 < n → IsForcing U0.reg (.qty ⟨1, vals⟩ u) n F →
      ∃ m₂, IRM.simulate U0.reg (.qty ⟨1, vals⟩ u) _ = (m₂, .ok ()) := fun hn hd =>
    ⟨_, Prod.ext rfl (C45_partial U0.lawful hreach hphys hok.boxes u2 u3 hn hd)⟩
  refine (IRM.runs_iff U0.lawful.toDimensional hm Ex.wellFormed Ex.selection).mpr
    ⟨by simp, ?_, .yearly, _, hy, hsd, ?_⟩
  · intro i j r r' hij hi hj
    have h1 : i < 2 := (List.getElem?_eq_some_iff.mp hi).1
    have h2 : j < 2 := (List.getElem?_eq_some_iff.mp hj).1
    obtain ⟨d1, d2⟩ := Ex.distinguishable U0.reg m.pub.params
    interval_cases i <;> interval_cases j
    · exact absurd rfl hij
    · simp at hi hj; subst hi; subst hj; exact d1
    · simp at hi hj; subst hi; subst hj; exact d2
    · exact absurd rfl hij
  · intro r hr
    simp only [List.mem_cons, List.not_mem_nil, or_false] at hr
    rcases hr with rfl | rfl
    · refine ⟨⟨.fin 1, by simp [Ex.rowA], rfl⟩, by simp [Ex.rowA, Ex.info, Meta.get], "W/m^2", U0.reg.wm2, rfl, by rfl, ?_⟩
      have e : present Ex.rowA.vals = [.fin 1, .fin 2] := by simp [present, Ex.rowA]
      rw [e]
      refine run (n := 2) (F := fun i => (i : ℝ) + 1) (by norm_num) ⟨_, _, rfl, rfl, ?_⟩
      intro i hi
      simp only [List.length_cons, List.length_nil] at hi
      interval_cases i
      · simpa using isNum_self (R := U0.reg) 1 U0.reg.wm2
      · have := isNum_self (R := U0.reg) 2 U0.reg.wm2
        norm_num; exact this
    · refine ⟨⟨.fin 1, by simp [Ex.rowB], rfl⟩, by simp [Ex.rowB, Ex.info, Meta.get], "kW/m^2", U0.kwU, rfl, by rfl, ?_⟩
      have e : present Ex.rowB.vals = [.fin 1, .fin 2, .fin 3] := by simp [present, Ex.rowB]
      rw [e]
      refine run (n := 3) (F := fun i => ((i : ℝ) + 1) * 1000) (by norm_num) ⟨_, _, rfl, rfl, ?_⟩
      intro i hi
      simp only [List.length_cons, List.length_nil] at hi
      interval_cases i
      · simpa using U0.kw_num 1
      · have := U0.kw_num 2; norm_num at this ⊢; exact this
      · have := U0.kw_num 3; norm_num at this ⊢; exact this

end TwoLayer
