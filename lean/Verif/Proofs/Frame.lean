import Verif.Proofs.ScenGen
import Verif.Proofs.Success

/-! Shape of the frame `run_scenarios` returns -/

set_option linter.unusedSimpArgs false
set_option linter.unusedSectionVars false

namespace TwoLayer
variable {N α σ : Type} [Fintype N] [DecidableEq N] [Arith α] [DecidableEq α]

theorem usedAt_iff (rows : List (Row α)) (i : Nat) :
    usedAt rows i = true ↔ ∃ r ∈ rows, ∃ x, r.vals[i]? = some x ∧ Arith.isNaN x = false := by
  unfold usedAt
  rw [List.any_eq_true]
  refine exists_congr fun r => and_congr_right fun _ => ?_
  cases r.vals[i]? <;> simp

theorem Meta.mem_keys_of_get {m : Meta α} {k : String} {v : MVal α} (h : m.get k = some v) : k ∈ m.keys := by
  by_contra hn
  rw [Meta.get_eq_none_iff.mpr hn] at h
  cases h

theorem Meta.keys_set_of_get {m : Meta α} {k : String} {v : MVal α} (h : m.get k = some v) (w : MVal α) :
    (m.set k w).keys = m.keys := by
  rw [Meta.keys_set, if_pos (Meta.mem_keys_of_get h)]

theorem createInfo_keys {m : Meta α} {v w : MVal α} (hu : m.get "unit" = some v) (hv : m.get "variable" = some w)
    (us vs : String) : (createInfo m us vs).keys = m.keys := by
  unfold createInfo
  rw [Meta.keys_set_of_get (v := w) (by rw [Meta.get_set_ne (by decide)]; exact hv), Meta.keys_set_of_get hu]

namespace Variant.Laws
variable {V : Variant N α σ} {R : Registry N α} (L : V.Laws R)

theorem frame {m m' : σ} (h : L.Inv m) {dv : String} {scen out : ScmRun α}
    (hrun : runScenarios V R dv scen m = (m', .ok out)) :
    out.times = keepAt (usedAt (scen.rows.filter (selects dv))) scen.times ∧
    (∀ row ∈ out.rows, ∃ r ∈ scen.rows.filter (selects dv), ∃ v : List α, v.length = r.vals.length ∧
      row.vals = keepAt (usedAt (scen.rows.filter (selects dv))) v ∧
      row.info.keys = ((annotate V.name (parasMeta R (L.params (L.pub m))) r.info).set "run_idx" (.int 0)).keys) ∧
    ∀ (i : Nat) (r : Row α), (scen.rows.filter (selects dv))[i]? = some r → ∃ row, out.rows[L.size * i]? = some row ∧
      row.vals = keepAt (usedAt (scen.rows.filter (selects dv))) (scatter r.vals (present r.vals)) := by
  rcases L.runScenarios_spec h dv scen with ⟨_, h1⟩ | ⟨_, e, _, h1⟩ | ⟨_, ts, m₁, hts, hm₁, hi, hk, hcase⟩
  · rw [hrun] at h1; cases h1
  · rw [hrun] at h1; cases h1
  rcases hcase with ⟨_, h1⟩ | ⟨hn, hi', hk', hcase⟩
  · rw [hrun] at h1; cases h1
  rw [hrun] at hi' hk' hcase
  rcases hcase with ⟨blocks, hl, hb, hout⟩ | ⟨_, _, _, _, _, h1⟩
  swap
  · cases h1
  have hps := L.params_names (L.pub m)
  have hmem : ∀ r ∈ scen.rows.filter (selects dv), ∃ v, r.info.get "variable" = some v := by
    intro r hr
    obtain ⟨⟨v, hv, -⟩, -⟩ := (selects_iff dv r).mp (List.mem_filter.mp hr).2
    exact ⟨_, hv⟩
  generalize hsel : scen.rows.filter (selects dv) = sel at *
  have hused : usedAt (annotated V R (L.params (L.pub m)) sel) = usedAt sel := by
    funext i
    apply usedAt_congr
    simp [annotated, List.map_map, Function.comp_def]
  cases hout
  simp only [concatRuns, hused]
  have hblk : ∀ b ∈ blocks, b.length = L.size := by
    intro b hbm
    obtain ⟨j, hj⟩ := List.mem_iff_getElem?.mp hbm
    have hjl : j < sel.length := by rw [← hl]; exact (List.getElem?_eq_some_iff.mp hj).1
    obtain ⟨b', hb1, hb2⟩ := hb j _ (by simp [annotated, List.getElem?_map, List.getElem?_eq_getElem hjl]; rfl)
    rw [hj] at hb1; cases hb1
    obtain ⟨us, u, m₂, _, _, _, _, _, rfl⟩ := L.rowRes_ok hb2
    exact L.number_mkBlock_length _ _ _
  refine ⟨trivial, fun row hrow => ?_, fun i r hr => ?_⟩
  swap
  · have hann : (annotated V R (L.params (L.pub m)) sel)[i]? =
        some { r with info := annotate V.name (parasMeta R (L.params (L.pub m))) r.info } := by
      simp [annotated, List.getElem?_map, hr]
    obtain ⟨b, hb1, hb2⟩ := hb i _ hann
    obtain ⟨us, u, m₂, g1, g2, g3, g4, g5, rfl⟩ := L.rowRes_ok hb2
    refine ⟨⟨(annotate V.name (parasMeta R (L.params (L.pub m))) r.info).set "run_idx" (.int i),
        keepAt (usedAt sel) (scatter r.vals (present r.vals))⟩, ?_, rfl⟩
    simp only [List.getElem?_map]
    have := flatten_getElem? hblk i 0 (by simp [size])
    rw [Nat.add_zero] at this
    rw [this, hb1]
    simp only [Option.bind_some, number, mkBlock, List.getElem?_map, List.getElem?_cons_zero, Option.map_some]
  simp only [List.mem_map] at hrow
  obtain ⟨row', hrow', rfl⟩ := hrow
  obtain ⟨b, hbm, hrb⟩ := List.mem_flatten.mp hrow'
  obtain ⟨j, hj⟩ := List.mem_iff_getElem?.mp hbm
  have hjl : j < sel.length := by rw [← hl]; exact (List.getElem?_eq_some_iff.mp hj).1
  have hann : (annotated V R (L.params (L.pub m)) sel)[j]? =
      some { sel[j] with info := annotate V.name (parasMeta R (L.params (L.pub m))) sel[j].info } := by
    simp [annotated, List.getElem?_map, List.getElem?_eq_getElem hjl]
  obtain ⟨b', hb1, hb2⟩ := hb j _ hann
  rw [hj] at hb1; cases hb1
  obtain ⟨us, u, m₂, g1, g2, g3, g4, g5, rfl⟩ := L.rowRes_ok hb2
  refine ⟨sel[j], List.getElem_mem hjl, row'.vals, ?_, rfl, ?_⟩
  · simp only [number, mkBlock, List.mem_map, List.mem_cons] at hrb
    obtain ⟨x, rfl | ⟨o, -, rfl⟩, rfl⟩ := hrb <;> simp [scatter_length]
  · obtain ⟨w, hw⟩ := hmem _ (List.getElem_mem hjl)
    have hw' : (annotate V.name (parasMeta R (L.params (L.pub m))) sel[j].info).get "variable" = some w := by
      rw [(annotate_meta (R := R) hps (name := V.name) sel[j].info).2.2 _ (by decide)
        (fun p _ => (paramColumn_ne R p (by decide)).symm)]
      exact hw
    simp only [number, mkBlock, List.mem_map, List.mem_cons] at hrb
    obtain ⟨x, rfl | ⟨o, -, rfl⟩, rfl⟩ := hrb
    · simp only [Meta.keys_set]
    · simp only [Meta.keys_set, createInfo_keys g1 hw']

/-- the returned frame is a well-formed `ScmRun`, on the times at which some selected series has a value -/
theorem frame_wellFormed {m m' : σ} (h : L.Inv m) {dv : String} {scen out : ScmRun α} (hw : scen.WellFormed)
    (hrun : runScenarios V R dv scen m = (m', .ok out)) {sel : List (Row α)} (hsel : Selection dv scen.rows sel) :
    out.WellFormed ∧ out.times.Sublist scen.times ∧
    ∀ t, t ∈ out.times ↔ ∃ i : Nat, scen.times[i]? = some t ∧ ∃ r ∈ sel, ∃ x, r.vals[i]? = some x ∧ Arith.isNaN x = false := by
  have hs := (selection_iff dv _ _).mp hsel
  subst hs
  obtain ⟨h1, h2, -⟩ := L.frame h hrun
  have hsub : ∀ r ∈ scen.rows.filter (selects dv), r ∈ scen.rows := fun r hr => (List.mem_filter.mp hr).1
  have hkeys : ∀ r ∈ scen.rows.filter (selects dv), ∀ r' ∈ scen.rows.filter (selects dv),
      (annotate V.name (parasMeta R (L.params (L.pub m))) r.info).keys =
        (annotate V.name (parasMeta R (L.params (L.pub m))) r'.info).keys := by
    intro r hr r' hr'
    unfold annotate
    apply foldl_set_keys
    rw [Meta.keys_set, Meta.keys_set]
    unfold Meta.keys
    rw [hw.columns r (hsub r hr) r' (hsub r' hr')]
  refine ⟨⟨?_, ?_, ?_⟩, ?_, ?_⟩
  · intro row hrow row' hrow'
    obtain ⟨r, hr, -, -, -, e⟩ := h2 row hrow
    obtain ⟨r', hr', -, -, -, e'⟩ := h2 row' hrow'
    show row.info.keys = row'.info.keys
    rw [e, e', Meta.keys_set, Meta.keys_set, hkeys r hr r' hr']
  · intro row hrow
    obtain ⟨r, hr, -, -, -, e⟩ := h2 row hrow
    show row.info.keys.Nodup
    rw [e]
    exact Meta.nodup_keys_set (foldl_set_nodup (Meta.nodup_keys_set (hw.nodup r (hsub r hr))))
  · intro row hrow
    obtain ⟨r, hr, v, hv, e, -⟩ := h2 row hrow
    rw [e, h1, keepAt_length, keepAt_length, hv, hw.values r (hsub r hr)]
  · rw [h1]; exact keepAt_sublist _ _
  · intro t
    rw [h1]
    constructor
    · intro ht
      obtain ⟨k, hk⟩ := List.mem_iff_getElem?.mp ht
      obtain ⟨i, a, -, c⟩ := keepAt_getElem?_inv hk
      exact ⟨i, c, (usedAt_iff _ _).mp a⟩
    · rintro ⟨i, a, b⟩
      have := keepAt_getElem? ((usedAt_iff _ _).mpr b) scen.times
      rw [a] at this
      exact List.mem_of_getElem? this

end Variant.Laws
end TwoLayer
