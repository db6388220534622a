import Verif.Proofs.Ieee
import Verif.Proofs.Init

/-!
# C113: infinities and NaN cannot hide

`F64` (binary64 with infinities, NaN and signed zeros), `FiniteAt`, `FiniteForcing` and `FiniteIn` are in `Spec/Ieee.lean`.
-/

set_option linter.unusedSimpArgs false
set_option linter.unusedSectionVars false

namespace TwoLayer
section
variable {N : Type} [Fintype N] [DecidableEq N] {py : Bool} {R : Registry N (F64 py)}

theorem finiteIn_of {q : Qty N (F64 py)} {u : Units N} (hu : UnitOk R q.unit u) (hx : (q.magIn R u).Finite) :
    FiniteIn R q u := ⟨_, by unfold Qty.toUnit; exact if_pos hu, hx⟩

/-- **C113** (two-layer).  In a run in binary64 arithmetic that raises nothing, whatever the parameters and drivers:

* an upper temperature that is a number has only numbers behind it: both temperatures at every earlier time, and the forcing
  at every earlier time, are finite;
* so has a lower temperature (forcing: at every time but the last one before it);
* a heat uptake that is a number belongs to two temperatures that are numbers (so everything before is finite too) and to
  finite heat capacities;
* with a finite upper temperature after the first, `lambda0`, `a`, `efficacy`, `eta` and `delta_t` are finite. -/
theorem C113_two_layer (D : R.Dimensional) {m m' : TLM N (F64 py)} (hm : TLM.Reachable R m) {d : DArg N (F64 py)}
    (h : TLM.simulate R d m = (m', .ok ())) :
    ∃ Tu Tl U, m'.outputs = [("Surface Temperature|Upper", "delta_degC", Tu),
        ("Surface Temperature|Lower", "delta_degC", Tl), ("Heat Uptake", "W/m^2", U)] ∧
      (∀ k, FiniteAt Tu k → ∀ j < k, FiniteAt Tu j ∧ FiniteAt Tl j ∧ FiniteForcing R d j) ∧
      (∀ k, FiniteAt Tl k → (∀ j < k, FiniteAt Tu j ∧ FiniteAt Tl j) ∧ ∀ j, j + 1 < k → FiniteForcing R d j) ∧
      (∀ k, FiniteAt U (k + 1) → FiniteAt Tu (k + 1) ∧ FiniteAt Tl (k + 1) ∧
        FiniteIn R (m.heatCapacityUpper R) R.jm2c ∧ FiniteIn R (m.heatCapacityLower R) R.jm2c) ∧
      (∀ k, FiniteAt Tu (k + 1) → FiniteIn R m.lambda0 R.wm2c ∧ FiniteIn R m.a R.wm2cc ∧ FiniteIn R m.efficacy R.one ∧
        FiniteIn R m.eta R.wm2c ∧ FiniteIn R m.core.deltaT R.s) := by
  have hc := TLM.Reachable.coherent R D hm
  obtain ⟨vals, u, v, hg, rfl, hI⟩ := TLM.simulate_ok h
  have hP := F64.absorbs (py := py)
  have len : (modelF R vals u).length = vals.length := modelF_length _ _ _
  have rd : ∀ {l : List (F64 py)} {k}, l.length = (modelF R vals u).length → FiniteAt l k → k < vals.length := by
    rintro l k hl ⟨x, hx, -⟩
    obtain ⟨hk, -⟩ := List.getElem?_eq_some_iff.mp hx
    omega
  have cell : ∀ {k}, k < vals.length → ∃ x : F64 py × F64 py × F64 py, m.eng.seq (modelF R vals u) k = .ok x ∧
      v.A[k]? = some x.1 ∧ v.B[k]? = some x.2.1 ∧ v.C[k]? = some x.2.2 := by
    intro k hk
    obtain ⟨a, b, c, h1, h2, h3, h4⟩ := hI.done k hk
    exact ⟨(a, b, c), h1, h2, h3, h4⟩
  have forc : ∀ {j f}, (modelF R vals u)[j]? = some f → f.Finite → FiniteForcing R d j := by
    intro j f hf hx
    simp only [modelF, magsIn, List.getElem?_map, Option.map_eq_some_iff] at hf
    obtain ⟨x, h1, h2⟩ := hf
    refine ⟨vals, u, x, hg.1, h1, finiteIn_of hg.2.1 ?_⟩
    rw [h2]; exact hx
  have back : ∀ k, FiniteAt v.A k → ∀ j < k, FiniteAt v.A j ∧ FiniteAt v.B j ∧ FiniteForcing R d j := by
    intro k hk j hj
    have hk' := rd hI.lA hk
    obtain ⟨x, hx, xA, xB, xC⟩ := cell hk'
    obtain ⟨z, hz, hzf⟩ := hk
    rw [xA] at hz; cases hz
    obtain ⟨y, f, hy, hf, y1, y2, y3⟩ := (TLM.absorb hP hx).1 hzf j hj
    obtain ⟨y', hy', yA, yB, -⟩ := cell (hj.trans hk')
    rw [hy] at hy'; cases hy'
    exact ⟨⟨_, yA, y1⟩, ⟨_, yB, y2⟩, forc hf y3⟩
  refine ⟨v.A, v.B, v.C, rfl, back, ?_, ?_, ?_⟩
  · intro k hk
    have hk' := rd hI.lB hk
    obtain ⟨x, hx, xA, xB, xC⟩ := cell hk'
    obtain ⟨z, hz, hzf⟩ := hk
    rw [xB] at hz; cases hz
    have key : ∀ j < k, FiniteAt v.A j ∧ FiniteAt v.B j := by
      intro j hj
      obtain ⟨y, hy, y1, y2⟩ := (TLM.absorb hP hx).2 hzf j hj
      obtain ⟨y', hy', yA, yB, -⟩ := cell (hj.trans hk')
      rw [hy] at hy'; cases hy'
      exact ⟨⟨_, yA, y1⟩, ⟨_, yB, y2⟩⟩
    exact ⟨key, fun j hj => (back (j + 1) (key (j + 1) hj).1 j (by omega)).2.2⟩
  · intro k hk
    obtain ⟨x, hx, xA, xB, xC⟩ := cell (rd hI.lC hk)
    obtain ⟨z, hz, hzf⟩ := hk
    rw [xC] at hz; cases hz
    obtain ⟨y, f, hy, hf, e1, e2, e3⟩ := TLM.seq_succ hx
    rw [e3] at hzf
    obtain ⟨h1, -, h3, h4, -, h6⟩ := absorbs_uptake hP hzf
    refine ⟨⟨_, xA, h4⟩, ⟨_, xB, h1⟩, ?_, ?_⟩
    · rw [hc.hcuMag] at h6
      exact finiteIn_of (D.heat_ok hc.duUnit) h6
    · rw [hc.hclMag] at h3
      exact finiteIn_of (D.heat_ok hc.dlUnit) h3
  · intro k hk
    obtain ⟨x, hx, xA, xB, xC⟩ := cell (rd hI.lA hk)
    obtain ⟨z, hz, hzf⟩ := hk
    rw [xA] at hz; cases hz
    obtain ⟨y, f, hy, hf, e1, e2, e3⟩ := TLM.seq_succ hx
    rw [e1] at hzf
    obtain ⟨h1, -, -, -, h5, h6, h7, h8⟩ := absorbs_upper hP hzf
    rw [hc.core.dtMag] at h1
    rw [hc.lambda0Mag] at h5
    rw [hc.aMag] at h6
    rw [hc.efficacyMag] at h7
    rw [hc.etaMag] at h8
    exact ⟨finiteIn_of hc.lambda0Unit h5, finiteIn_of hc.aUnit h6, finiteIn_of hc.efficacyUnit h7, finiteIn_of hc.etaUnit h8,
      finiteIn_of hc.core.dtUnit h1⟩

/-- **C113** (two-layer, an infinite driver value).  `set_drivers` and `reset` refuse NaN but accept infinities.  If the
forcing at time `i` is not finite (or overflows when converted), no later upper temperature and no later heat uptake is a
number, and no lower temperature from two steps later on. -/
theorem C113_two_layer_infinite (D : R.Dimensional) {m m' : TLM N (F64 py)} (hm : TLM.Reachable R m) {d : DArg N (F64 py)}
    (h : TLM.simulate R d m = (m', .ok ())) {i : ℕ} (hi : ¬ FiniteForcing R d i) :
    ∃ Tu Tl U, m'.outputs = [("Surface Temperature|Upper", "delta_degC", Tu),
        ("Surface Temperature|Lower", "delta_degC", Tl), ("Heat Uptake", "W/m^2", U)] ∧
      ∀ k > i, ¬ FiniteAt Tu k ∧ ¬ FiniteAt U k ∧ ¬ FiniteAt Tl (k + 1) := by
  obtain ⟨Tu, Tl, U, ho, h1, h2, h3, -⟩ := C113_two_layer D hm h
  refine ⟨Tu, Tl, U, ho, fun k hk => ⟨fun hf => hi (h1 k hf i hk).2.2, fun hf => ?_, fun hf => ?_⟩⟩
  · obtain ⟨k, rfl⟩ : ∃ j, k = j + 1 := ⟨k - 1, by omega⟩
    exact hi (h1 _ (h3 k hf).1 i hk).2.2
  · exact hi ((h2 _ hf).2 i (by omega))

/-- **C113** (impulse response).  In a run in binary64 arithmetic that raises nothing, whatever the parameters and drivers:

* a temperature of a box that is a number has only numbers behind it: the temperatures of that box and the forcing at every
  earlier time are finite, and so is its coefficient `q1` or `q2`;
* a surface temperature that is a number is the sum of two finite box temperatures;
* a heat uptake that is a number comes from finite box temperatures and a finite forcing one step earlier. -/
theorem C113_impulse_response {m m' : IRM N (F64 py)} (hm : IRM.Reachable R m) {d : DArg N (F64 py)}
    (h : IRM.simulate R d m = (m', .ok ())) :
    ∃ T1 T2 T U, m'.outputs = [("Surface Temperature|Box 1", "delta_degC", T1),
        ("Surface Temperature|Box 2", "delta_degC", T2), ("Surface Temperature", "delta_degC", T),
        ("Heat Uptake", "W/m^2", U)] ∧
      (∀ k, FiniteAt T1 k → ∀ j < k, FiniteAt T1 j ∧ FiniteForcing R d j ∧ FiniteIn R m.q1 R.cwm2) ∧
      (∀ k, FiniteAt T2 k → ∀ j < k, FiniteAt T2 j ∧ FiniteForcing R d j ∧ FiniteIn R m.q2 R.cwm2) ∧
      (∀ k, FiniteAt T k → FiniteAt T1 k ∧ FiniteAt T2 k) ∧
      (∀ k, FiniteAt U (k + 1) → FiniteAt T1 k ∧ FiniteAt T2 k ∧ FiniteForcing R d k) := by
  have hc := IRM.Reachable.coherent R hm
  obtain ⟨vals, u, v, hg, rfl, hI⟩ := IRM.simulate_ok h
  have hP := F64.absorbs (py := py)
  have len : (modelF R vals u).length = vals.length := modelF_length _ _ _
  have rd : ∀ {l : List (F64 py)} {k}, l.length = (modelF R vals u).length → FiniteAt l k → k < vals.length := by
    rintro l k hl ⟨x, hx, -⟩
    obtain ⟨hk, -⟩ := List.getElem?_eq_some_iff.mp hx
    omega
  have cell : ∀ {k}, k < vals.length → ∃ x : F64 py × F64 py × F64 py, (m.eng R).seq (modelF R vals u) k = .ok x ∧
      v.A[k]? = some x.1 ∧ v.B[k]? = some x.2.1 ∧ v.C[k]? = some x.2.2 := by
    intro k hk
    obtain ⟨a, b, c, h1, h2, h3, h4⟩ := hI.done k hk
    exact ⟨(a, b, c), h1, h2, h3, h4⟩
  have forc : ∀ {j f}, (modelF R vals u)[j]? = some f → f.Finite → FiniteForcing R d j := by
    intro j f hf hx
    simp only [modelF, magsIn, List.getElem?_map, Option.map_eq_some_iff] at hf
    obtain ⟨x, h1, h2⟩ := hf
    refine ⟨vals, u, x, hg.1, h1, finiteIn_of hg.2.1 ?_⟩
    rw [h2]; exact hx
  refine ⟨v.A, v.B, List.zipWith (· + ·) v.A v.B, v.C, rfl, ?_, ?_, ?_, ?_⟩
  · intro k hk j hj
    have hk' := rd hI.lA hk
    obtain ⟨x, hx, xA, -, -⟩ := cell hk'
    obtain ⟨z, hz, hzf⟩ := hk
    rw [xA] at hz; cases hz
    obtain ⟨y, f, hy, hf, y1, y2⟩ := (IRM.absorb hP hx).1 hzf j hj
    obtain ⟨y', hy', yA, -, -⟩ := cell (hj.trans hk')
    rw [hy] at hy'; cases hy'
    refine ⟨⟨_, yA, y1⟩, forc hf y2, ?_⟩
    obtain ⟨k, rfl⟩ : ∃ i, k = i + 1 := ⟨k - 1, by omega⟩
    obtain ⟨w, f', -, -, e1, -, -⟩ := IRM.seq_succ hx
    have := (absorbs_box hP e1 hzf).2.1
    rw [hc.q1Mag] at this
    exact finiteIn_of hc.q1Unit this
  · intro k hk j hj
    have hk' := rd hI.lB hk
    obtain ⟨x, hx, -, xB, -⟩ := cell hk'
    obtain ⟨z, hz, hzf⟩ := hk
    rw [xB] at hz; cases hz
    obtain ⟨y, f, hy, hf, y1, y2⟩ := (IRM.absorb hP hx).2 hzf j hj
    obtain ⟨y', hy', -, yB, -⟩ := cell (hj.trans hk')
    rw [hy] at hy'; cases hy'
    refine ⟨⟨_, yB, y1⟩, forc hf y2, ?_⟩
    obtain ⟨k, rfl⟩ : ∃ i, k = i + 1 := ⟨k - 1, by omega⟩
    obtain ⟨w, f', -, -, -, e2, -⟩ := IRM.seq_succ hx
    have := (absorbs_box hP e2 hzf).2.1
    rw [hc.q2Mag] at this
    exact finiteIn_of hc.q2Unit this
  · rintro k ⟨z, hz, hzf⟩
    rw [List.getElem?_zipWith_eq_some] at hz
    obtain ⟨a, b, ha, hb, rfl⟩ := hz
    exact ⟨⟨a, ha, (hP.add hzf).1⟩, ⟨b, hb, (hP.add hzf).2⟩⟩
  · intro k hk
    have hk' := rd hI.lC hk
    obtain ⟨x, hx, -, -, xC⟩ := cell hk'
    obtain ⟨z, hz, hzf⟩ := hk
    rw [xC] at hz; cases hz
    obtain ⟨y, f, hy, hf, -, -, e3⟩ := IRM.seq_succ hx
    obtain ⟨h1, h2, h3⟩ := absorbs_ir_uptake hP e3 hzf
    obtain ⟨y', hy', yA, yB, -⟩ := cell (k := k) (by omega)
    rw [hy] at hy'; cases hy'
    exact ⟨⟨_, yA, h1⟩, ⟨_, yB, h2⟩, forc hf h3⟩

/-- **C113** (impulse response, an infinite driver value).  If the forcing at time `i` is not finite, no later box
temperature, surface temperature or heat uptake is a number. -/
theorem C113_impulse_response_infinite {m m' : IRM N (F64 py)} (hm : IRM.Reachable R m) {d : DArg N (F64 py)}
    (h : IRM.simulate R d m = (m', .ok ())) {i : ℕ} (hi : ¬ FiniteForcing R d i) :
    ∃ T1 T2 T U, m'.outputs = [("Surface Temperature|Box 1", "delta_degC", T1),
        ("Surface Temperature|Box 2", "delta_degC", T2), ("Surface Temperature", "delta_degC", T),
        ("Heat Uptake", "W/m^2", U)] ∧
      ∀ k > i, ¬ FiniteAt T1 k ∧ ¬ FiniteAt T2 k ∧ ¬ FiniteAt T k ∧ ¬ FiniteAt U k := by
  obtain ⟨T1, T2, T, U, ho, h1, h2, h3, h4⟩ := C113_impulse_response hm h
  have n1 : ∀ k > i, ¬ FiniteAt T1 k := fun k hk hf => hi (h1 k hf i hk).2.1
  refine ⟨T1, T2, T, U, ho, fun k hk => ⟨n1 k hk, fun hf => hi (h2 k hf i hk).2.1, fun hf => n1 k hk (h3 k hf).1, fun hf => ?_⟩⟩
  obtain ⟨k, rfl⟩ : ∃ j, k = j + 1 := ⟨k - 1, by omega⟩
  obtain ⟨a, -, c⟩ := h4 k hf
  rcases Nat.lt_or_ge i k with hik | hik
  · exact n1 k hik a
  · have : k = i := by omega
    exact hi (this ▸ c)
end
end TwoLayer
