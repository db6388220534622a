import Verif.Proofs.ScenGen

/-! # `run_scenarios`: collisions, and feeding results back -/

set_option linter.unusedSimpArgs false
set_option linter.unusedSectionVars false

namespace TwoLayer
variable {N α σ : Type} [Fintype N] [DecidableEq N] [Arith α] [DecidableEq α]

/-! ## missing values -/

/-- a series with its missing values made `nan` -/
theorem scatter_canon_isNaN (hnan : Arith.isNaN (Arith.nan : α) = true) (v : List α) :
    (scatter v (present v)).map Arith.isNaN = v.map Arith.isNaN := by
  induction v with
  | nil => rfl
  | cons d v ih =>
    by_cases hd : Arith.isNaN d = true
    · have hp : present (d :: v) = present v := by simp [present, hd]
      simp only [scatter, hd, if_true, hp, List.map_cons, hnan, ih]
    · have hd' : Arith.isNaN d = false := by simpa using hd
      have hp : present (d :: v) = d :: present v := by simp [present, hd']
      simp only [scatter, hd', hp, List.map_cons, ih, Bool.false_eq_true, if_false]

theorem present_scatter_canon (hnan : Arith.isNaN (Arith.nan : α) = true) (v : List α) :
    present (scatter v (present v)) = present v := by
  induction v with
  | nil => rfl
  | cons d v ih =>
    by_cases hd : Arith.isNaN d = true
    · have hp : present (d :: v) = present v := by simp [present, hd]
      have hp2 : ∀ l : List α, present (Arith.nan :: l) = present l := fun l => by simp [present, hnan]
      simp only [scatter, hd, if_true, hp, hp2, ih]
    · have hd' : Arith.isNaN d = false := by simpa using hd
      have hp : ∀ l, present (d :: l) = d :: present l := fun l => by simp [present, hd']
      simp only [scatter, hd', hp, ih, Bool.false_eq_true, if_false]

theorem scatter_congr {v w : List α} (h : v.map Arith.isNaN = w.map Arith.isNaN) (xs : List α) : scatter v xs = scatter w xs := by
  induction v generalizing w xs with
  | nil => cases w <;> simp_all
  | cons d v ih =>
    cases w with
    | nil => simp at h
    | cons e w =>
      simp only [List.map_cons, List.cons.injEq] at h
      simp only [scatter, h.1]
      split
      · rw [ih h.2]
      · cases xs with
        | nil => simp only [ih h.2]
        | cons x xs => simp only [ih h.2]

theorem usedAt_congr {rows rows' : List (Row α)}
    (h : rows.map (fun r => r.vals.map Arith.isNaN) = rows'.map (fun r => r.vals.map Arith.isNaN)) (i : Nat) :
    usedAt rows i = usedAt rows' i := by
  have key : ∀ rs : List (Row α), usedAt rs i = (rs.map (fun r => r.vals.map Arith.isNaN)).any (fun l => l[i]? == some false) := by
    intro rs
    unfold usedAt
    rw [List.any_map]
    congr 1
    funext r
    simp only [Function.comp, List.getElem?_map]
    cases r.vals[i]? with
    | none => rfl
    | some x => cases hx : Arith.isNaN x <;> simp [hx]
  rw [key, key, h]

namespace Variant.Laws
variable {V : Variant N α σ} {R : Registry N α} (L : V.Laws R)

theorem annotate_eq_self {name : String} {ps : List (String × Qty N α)} {m : Meta α}
    (h1 : m.get "climate_model" = some (.str name))
    (h2 : ∀ p ∈ ps, m.get (paramColumn R p) = some (.num p.2.mag)) : annotate name (parasMeta R ps) m = m := by
  unfold annotate
  rw [Meta.set_eq_of_get h1]
  apply foldl_set_eq
  intro kv hkv
  obtain ⟨p, hp, rfl⟩ := List.mem_map.mp hkv
  exact h2 p hp

theorem createInfo_run_idx {m : Meta α} {v u : MVal α} (hv : m.get "variable" = some v) (hu : m.get "unit" = some u)
    (unit var : String) (x : MVal α) :
    (createInfo (m.set "run_idx" x) unit var).set "run_idx" x = (createInfo m unit var).set "run_idx" x := by
  unfold createInfo
  rw [← Meta.set_comm (k := "unit") (k' := "run_idx") (by decide) _ _ hu,
    ← Meta.set_comm (k := "variable") (k' := "run_idx") (w := v) (by decide) _ _
      (by rw [Meta.get_set_ne (by decide)]; exact hv), Meta.set_set]

theorem filter_flatten {β : Type} {p : β → Bool} {g : List β → β} : ∀ {blocks : List (List β)},
    (∀ b ∈ blocks, b.filter p = [g b]) → blocks.flatten.filter p = blocks.map g := by
  intro blocks
  induction blocks with
  | nil => intro _; rfl
  | cons b bs ih =>
    intro h
    rw [List.flatten_cons, List.filter_append, h b (by simp), ih fun b hb => h b (by simp [hb])]
    rfl

include L

/-- series whose metadata collide after annotation are refused -/
theorem collision {m : σ} (h : L.Inv m) {dv : String} {scen : ScmRun α} {i j : Nat} {r r' : Row α} (hij : i ≠ j)
    (hi : (scen.rows.filter (selects dv))[i]? = some r) (hj : (scen.rows.filter (selects dv))[j]? = some r')
    (hk : r.info.keys = r'.info.keys) (hn : r.info.keys.Nodup)
    (hg : ∀ c, c ≠ "climate_model" → (∀ p ∈ L.params (L.pub m), c ≠ paramColumn R p) → r.info.get c = r'.info.get c) :
    (∃ e, selectTimestep scen.times = .error e ∧ runScenarios V R dv scen m = (m, .error e)) ∨
    (∃ m₁, runScenarios V R dv scen m = (m₁, .error .nonUniqueMeta)) := by
  have hps := L.params_names (L.pub m)
  have heq : annotate V.name (parasMeta R (L.params (L.pub m))) r.info =
      annotate V.name (parasMeta R (L.params (L.pub m))) r'.info := by
    apply Meta.ext_of_keys
    · unfold annotate
      apply foldl_set_keys
      rw [Meta.keys_set, Meta.keys_set, hk]
    · unfold annotate
      exact foldl_set_nodup (Meta.nodup_keys_set hn)
    · intro c
      obtain ⟨a1, a2, a3⟩ := annotate_meta (R := R) hps (name := V.name) r.info
      obtain ⟨b1, b2, b3⟩ := annotate_meta (R := R) hps (name := V.name) r'.info
      by_cases h1 : c = "climate_model"
      · subst h1; rw [a1, b1]
      · by_cases h2 : ∃ p ∈ L.params (L.pub m), c = paramColumn R p
        · obtain ⟨p, hp, rfl⟩ := h2
          rw [a2 p hp, b2 p hp]
        · have : ∀ p ∈ L.params (L.pub m), c ≠ paramColumn R p := fun p hp e => h2 ⟨p, hp, e⟩
          rw [a3 c h1 this, b3 c h1 this, hg c h1 this]
  have hnot : ¬ ((annotated V R (L.params (L.pub m)) (scen.rows.filter (selects dv))).map Row.info).Nodup := by
    intro hnd
    have hil := (List.getElem?_eq_some_iff.mp hi).1
    have hjl := (List.getElem?_eq_some_iff.mp hj).1
    apply hij
    refine (List.Nodup.getElem_inj_iff hnd (hi := by simpa using hil) (hj := by simpa using hjl)).mp ?_
    simp only [List.getElem_map, (List.getElem?_eq_some_iff.mp hi).2, (List.getElem?_eq_some_iff.mp hj).2]
    exact heq
  rcases L.runScenarios_spec h dv scen with ⟨a1, _⟩ | ⟨_, e, a2, a3⟩ | ⟨_, ts, m₁, _, _, _, _, ⟨_, a7⟩ | ⟨a6, _⟩⟩
  · rw [a1] at hi; cases hi
  · exact Or.inl ⟨e, a2, a3⟩
  · exact Or.inr ⟨m₁, a7⟩
  · exact absurd a6 hnot

/-- a driver with the name and unit of an output is refused -/
theorem named_as_output {m : σ} (h : L.Inv m) {dv : String} {scen : ScmRun α} {r : Row α}
    (hr : r ∈ scen.rows.filter (selects dv)) {n : String × String} (hn : n ∈ L.names)
    (hv : r.info.get "variable" = some (.str n.1)) (hu : r.info.get "unit" = some (.str n.2)) :
    ∃ e, (runScenarios V R dv scen m).2 = .error e := by
  rcases hrun : runScenarios V R dv scen m with ⟨m', e | out⟩
  · exact ⟨e, rfl⟩
  · obtain ⟨ts, m₁, -, -, -, -, -, -, -, a5⟩ := L.returned h hrun
    obtain ⟨i, hi⟩ := List.mem_iff_getElem?.mp hr
    obtain ⟨us, u, m₂, -, -, -, c6, -⟩ := a5 i r hi
    rw [← L.out_names m₂] at hn
    obtain ⟨o, ho, rfl⟩ := List.mem_map.mp hn
    exact absurd ⟨hv, hu⟩ (c6 o ho)

/-- results fed back in -/
theorem feedback (hnan : Arith.isNaN (Arith.nan : α) = true) {m m' : σ} (h : L.Inv m) {dv : String} {scen out : ScmRun α}
    (hlen : ∀ r ∈ scen.rows, r.vals.length = scen.times.length)
    (hused : ∀ i, i < scen.times.length → ∃ r ∈ scen.rows.filter (selects dv), ∃ x, r.vals[i]? = some x ∧ Arith.isNaN x = false)
    (hnames : ∀ n ∈ L.names, ¬ Glob dv.toList n.1.toList)
    (hrun : runScenarios V R dv scen m = (m', .ok out)) :
    (runScenarios V R dv out m').2 = .ok out := by
  have hps := L.params_names (L.pub m)
  rcases L.runScenarios_spec h dv scen with ⟨_, h1⟩ | ⟨_, e, _, h1⟩ | ⟨hsne, ts, m₁, hts, hm₁, hi, hk, hcase⟩
  · rw [hrun] at h1; cases h1
  · rw [hrun] at h1; cases h1
  rcases hcase with ⟨_, h1⟩ | ⟨hn, hi', hk', hcase⟩
  · rw [hrun] at h1; cases h1
  rw [hrun] at hi' hk' hcase
  simp only at hi' hk'
  rcases hcase with ⟨blocks, hl, hb, hout⟩ | ⟨_, _, _, _, _, h1⟩
  swap
  · cases h1
  simp only [Except.ok.injEq] at hout
  have hselmem : ∀ r ∈ scen.rows.filter (selects dv), r.vals.length = scen.times.length ∧ selects dv r = true :=
    fun r hr => ⟨hlen r (List.mem_filter.mp hr).1, (List.mem_filter.mp hr).2⟩
  generalize hsel : scen.rows.filter (selects dv) = sel at *
  generalize hps' : L.params (L.pub m) = ps at *
  -- the pieces of each block
  have hblk : ∀ (j : Nat) (r : Row α), sel[j]? = some r → ∃ us u m₂, r.info.get "unit" = some (.str us) ∧ R.parse us = some u ∧
      V.simulate (.qty ⟨1, present r.vals⟩ u) m₁ = (m₂, .ok ()) ∧ present r.vals ≠ [] ∧
      blocks[j]? = some (number j (mkBlock { r with info := annotate V.name (parasMeta R ps) r.info } (V.outputs m₂))) ∧
      ∀ o ∈ V.outputs m₂, ¬ (r.info.get "variable" = some (.str o.1) ∧ r.info.get "unit" = some (.str o.2.1)) := by
    intro j r hr
    obtain ⟨b, hb1, hb2⟩ := hb j { r with info := annotate V.name (parasMeta R ps) r.info } (by
      simp [annotated, List.getElem?_map, hr])
    obtain ⟨us, u, m₂, g1, g2, g3, g4, g5, rfl⟩ := L.rowRes_ok hb2
    simp only at g1 g3
    rw [annotated_get_unit _ hps] at g1
    exact ⟨us, u, m₂, g1, g2, g3, g4, hb1, createInfo_distinct hps g5⟩
  -- every time is used
  have hall : ∀ i, i < scen.times.length → usedAt (annotated V R ps sel) i = true := by
    intro i hi
    obtain ⟨r, hr, x, hx, hxn⟩ := hused i hi
    simp only [usedAt, List.any_eq_true]
    refine ⟨{ r with info := annotate V.name (parasMeta R ps) r.info }, ?_, by simp [hx, hxn]⟩
    simp only [annotated, List.mem_map]
    exact ⟨r, hr, rfl⟩
  have hblockrow : ∀ b ∈ blocks, ∀ row ∈ b, row.vals.length = scen.times.length := by
    intro b hbm row hrow
    obtain ⟨j, hj⟩ := List.mem_iff_getElem?.mp hbm
    have hjl : j < sel.length := by rw [← hl]; exact (List.getElem?_eq_some_iff.mp hj).1
    obtain ⟨us, u, m₂, -, -, -, -, hbj, -⟩ := hblk j _ (List.getElem?_eq_getElem hjl)
    rw [hj] at hbj
    simp only [Option.some.injEq] at hbj
    subst hbj
    have hrl := (hselmem sel[j] (List.getElem_mem hjl)).1
    simp only [number, mkBlock, List.map_cons, List.mem_cons, List.map_map, List.mem_map, Function.comp] at hrow
    rcases hrow with rfl | ⟨o, -, rfl⟩
    · simp only [scatter_length]; exact hrl
    · simp only [scatter_length]; exact hrl
  have hout' : out = ⟨scen.times, blocks.flatten⟩ := by
    rw [hout]
    unfold concatRuns
    rw [keepAt_all hall]
    congr 1
    conv_rhs => rw [← List.map_id blocks.flatten]
    apply List.map_congr_left
    intro row hrow
    obtain ⟨b, hbm, hrb⟩ := List.mem_flatten.mp hrow
    have := hblockrow b hbm row hrb
    have hk : keepAt (usedAt (annotated V R ps sel)) row.vals = row.vals := keepAt_all fun i hi => hall i (by omega)
    rw [hk]; rfl
  -- the driver of each block
  let head : Nat → Row α → Row α := fun j r =>
    ⟨(annotate V.name (parasMeta R ps) r.info).set "run_idx" (.int j), scatter r.vals (present r.vals)⟩
  have hheadget : ∀ j r c, c ≠ "run_idx" → (head j r).info.get c = (annotate V.name (parasMeta R ps) r.info).get c :=
    fun j r c hc => Meta.get_set_ne hc _ _
  have hann := fun (r : Row α) => annotate_meta (R := R) hps (name := V.name) r.info
  have hgetother : ∀ (r : Row α) (c : String), NoSpace c → c ≠ "climate_model" →
      (annotate V.name (parasMeta R ps) r.info).get c = r.info.get c :=
    fun r c hc hc' => (hann r).2.2 c hc' (fun p _ => (paramColumn_ne R p hc).symm)
  have hheadann : ∀ j r, annotate V.name (parasMeta R ps) (head j r).info = (head j r).info := by
    intro j r
    apply annotate_eq_self (R := R)
    · rw [hheadget _ _ _ (by decide)]; exact (hann r).1
    · intro p hp
      rw [hheadget _ _ _ (paramColumn_ne R p (by decide))]
      exact (hann r).2.1 p hp
  have hheadsel : ∀ j r, selects dv r = true → selects dv (head j r) = true := by
    intro j r hr
    rw [selects_iff] at hr ⊢
    unfold Selected at hr ⊢
    rw [hheadget _ _ _ (by decide), hheadget _ _ _ (by decide), hgetother r _ (by decide) (by decide),
      hgetother r _ (by decide) (by decide)]
    exact hr
  have hfilter : ∀ b ∈ blocks, b.filter (selects dv) = [b.head?.getD ⟨[], []⟩] := by
    intro b hbm
    obtain ⟨j, hj⟩ := List.mem_iff_getElem?.mp hbm
    have hjl : j < sel.length := by rw [← hl]; exact (List.getElem?_eq_some_iff.mp hj).1
    obtain ⟨us, u, m₂, -, -, -, -, hbj, -⟩ := hblk j _ (List.getElem?_eq_getElem hjl)
    rw [hj] at hbj
    simp only [Option.some.injEq] at hbj
    subst hbj
    have hs := hheadsel j sel[j] (hselmem sel[j] (List.getElem_mem hjl)).2
    have : number j (mkBlock { sel[j] with info := annotate V.name (parasMeta R ps) sel[j].info } (V.outputs m₂)) =
        head j sel[j] :: (V.outputs m₂).map (fun o => (⟨(createInfo (annotate V.name (parasMeta R ps) sel[j].info) o.2.1 o.1).set
          "run_idx" (.int j), scatter sel[j].vals o.2.2⟩ : Row α)) := by
      simp [number, mkBlock, head]
    rw [this, List.filter_cons, if_pos hs]
    simp only [List.head?_cons, Option.getD_some, List.cons.injEq, true_and]
    rw [List.filter_eq_nil_iff]
    intro row hrow
    obtain ⟨o, ho, rfl⟩ := List.mem_map.mp hrow
    rw [selects_iff]
    rintro ⟨⟨v, hv1, hv2⟩, -⟩
    rw [Meta.get_set_ne (by decide), createInfo, Meta.get_set_self] at hv1
    simp only [Option.some.injEq, MVal.str.injEq] at hv1
    subst hv1
    refine hnames (o.1, o.2.1) ?_ hv2
    rw [← L.out_names m₂]
    exact List.mem_map.mpr ⟨o, ho, rfl⟩
  -- the second selection
  have hsel2 : out.rows.filter (selects dv) = blocks.map (fun b => b.head?.getD ⟨[], []⟩) := by
    rw [hout']
    exact filter_flatten hfilter
  have hsel2get : ∀ (j : Nat) (r : Row α), sel[j]? = some r → (out.rows.filter (selects dv))[j]? = some (head j r) := by
    intro j r hr
    obtain ⟨us, u, m₂, -, -, -, -, hbj, -⟩ := hblk j r hr
    rw [hsel2, List.getElem?_map, hbj]
    simp [number, mkBlock, head]
  have hsel2len : (out.rows.filter (selects dv)).length = sel.length := by rw [hsel2, List.length_map, hl]
  have hpar2 : L.params (L.pub m') = ps := by rw [hk', hk, L.params_dt, hps']
  have hann2 : annotated V R (L.params (L.pub m')) (out.rows.filter (selects dv)) = out.rows.filter (selects dv) := by
    rw [hpar2]
    apply List.ext_getElem?
    intro j
    simp only [annotated, List.getElem?_map]
    by_cases hj : j < sel.length
    · rw [hsel2get j _ (List.getElem?_eq_getElem hj)]
      simp [hheadann]
    · rw [List.getElem?_eq_none (by omega)]; rfl
  have hnd2 : ((out.rows.filter (selects dv)).map Row.info).Nodup := by
    rw [List.nodup_iff_injective_getElem]
    intro a b hab
    have ha := a.2
    have hb' := b.2
    simp only [List.length_map, hsel2len] at ha hb'
    have e1 := hsel2get a.1 _ (List.getElem?_eq_getElem ha)
    have e2 := hsel2get b.1 _ (List.getElem?_eq_getElem hb')
    simp only [List.getElem_map, (List.getElem?_eq_some_iff.mp e1).2, (List.getElem?_eq_some_iff.mp e2).2] at hab
    have := congrArg (Meta.get "run_idx") hab
    simp only [head, Meta.get_set_self, Option.some.injEq, MVal.int.injEq] at this
    exact Fin.ext this
  -- each scenario yields the same block again
  have hrow2 : ∀ (n₁ : σ), L.Inv n₁ → L.pub n₁ = L.pub m₁ → ∀ (j : Nat) (r : Row α), sel[j]? = some r →
      ∃ b, blocks[j]? = some b ∧ rowRes V R n₁ j (head j r) = .ok b := by
    intro n₁ hn₁ hpn j r hr
    obtain ⟨us, u, m₂, g1, g2, g3, g4, hbj, g6⟩ := hblk j r hr
    refine ⟨_, hbj, ?_⟩
    have hpres : present (head j r).vals = present r.vals := present_scatter_canon hnan r.vals
    obtain ⟨s1, s2⟩ := L.sim_congr n₁ m₁ (.qty ⟨1, present r.vals⟩ u) hn₁ hi hpn
    rw [g3] at s1 s2
    have hsim : V.simulate (.qty ⟨1, present (head j r).vals⟩ u) n₁ = (m₂, .ok ()) := by
      rw [hpres]
      exact Prod.ext (s2 s1) s1
    have hvar : ∃ v, r.info.get "variable" = some v := by
      have := (hselmem r (List.mem_of_getElem? hr)).2
      rw [selects_iff] at this
      obtain ⟨⟨v, hv, -⟩, -⟩ := this
      exact ⟨_, hv⟩
    obtain ⟨v, hv⟩ := hvar
    have hunit : (head j r).info.get "unit" = some (.str us) := by
      rw [hheadget _ _ _ (by decide), hgetother r _ (by decide) (by decide), g1]
    have hnd : ((mkBlock (head j r) (V.outputs m₂)).map Row.info).Nodup := by
      have := createInfo_nodup (R := R) hps (name := V.name) (r := head j r) (outs := V.outputs m₂)
        (by
          have := L.names_nodup
          rw [← L.out_names m₂, List.map_map] at this
          exact this)
        (by
          intro o ho
          rw [hheadget _ _ _ (by decide), hheadget _ _ _ (by decide), hgetother r _ (by decide) (by decide),
            hgetother r _ (by decide) (by decide)]
          exact g6 o ho)
      rw [hheadann] at this
      exact this
    rw [L.rowRes_of j hunit g2 hsim (by rw [hpres]; exact g4) hnd]
    congr 1
    have hsc : ∀ xs, scatter (head j r).vals xs = scatter r.vals xs := fun xs =>
      scatter_congr (scatter_canon_isNaN hnan r.vals) xs
    simp only [number, mkBlock, List.map_cons, List.map_map, List.cons.injEq, Row.mk.injEq]
    refine ⟨⟨by simp [head], by rw [hsc, hpres]⟩, ?_⟩
    apply List.map_congr_left
    intro o _
    simp only [Function.comp, Row.mk.injEq, hsc, and_true]
    exact createInfo_run_idx (v := v) (u := .str us)
      (by rw [hgetother r _ (by decide) (by decide)]; exact hv)
      (by rw [hgetother r _ (by decide) (by decide)]; exact g1) _ _ _
  -- conclude
  have hne2 : out.rows.filter (selects dv) ≠ [] := by
    intro h0
    rw [h0] at hsel2len
    exact hsne (List.eq_nil_of_length_eq_zero (by simpa using hsel2len.symm))
  have hts2 : selectTimestep out.times = .ok ts := by rw [hout']; exact hts
  rcases L.runScenarios_spec hi' dv out with ⟨a1, _⟩ | ⟨_, e, a2, _⟩ | ⟨_, ts', n₁, a2, a3, a4, a5, a6⟩
  · exact absurd a1 hne2
  · rw [hts2] at a2; cases a2
  rw [hts2] at a2; cases a2
  rw [hann2] at a6
  have hpn : L.pub n₁ = L.pub m₁ := by rw [a5, hk', hk, L.withDt_withDt]
  rcases a6 with ⟨a6, _⟩ | ⟨_, _, _, a8⟩
  · exact absurd hnd2 a6
  rcases a8 with ⟨bl, e1, e2, e3⟩ | ⟨j, r, e, e1, e2, _⟩
  · rw [e3]
    have hbl : bl = blocks := by
      apply List.ext_getElem?
      intro j
      by_cases hj : j < sel.length
      · obtain ⟨b, f1, f2⟩ := hrow2 n₁ a4 hpn j _ (List.getElem?_eq_getElem hj)
        obtain ⟨b', f3, f4⟩ := e2 j _ (hsel2get j _ (List.getElem?_eq_getElem hj))
        rw [f2] at f4; cases f4
        rw [f1, f3]
      · rw [List.getElem?_eq_none (by omega), List.getElem?_eq_none (by omega)]
    rw [hbl]
    congr 1
    have hall2 : ∀ i, i < scen.times.length → usedAt (out.rows.filter (selects dv)) i = true := by
      intro i hi
      rw [usedAt_congr (rows' := annotated V R ps sel), hall i hi]
      apply List.ext_getElem?
      intro j
      simp only [annotated, List.getElem?_map, List.map_map]
      by_cases hj : j < sel.length
      · rw [hsel2get j _ (List.getElem?_eq_getElem hj), List.getElem?_eq_getElem hj]
        simp only [Option.map_some, Function.comp, head]
        rw [scatter_canon_isNaN hnan]
      · rw [List.getElem?_eq_none (by omega), List.getElem?_eq_none (by omega)]; rfl
    generalize out.rows.filter (selects dv) = sel2 at hall2
    rw [hout']
    unfold concatRuns
    simp only
    rw [keepAt_all hall2]
    congr 1
    conv_rhs => rw [← List.map_id blocks.flatten]
    apply List.map_congr_left
    intro row hrow
    obtain ⟨b, hbm, hrb⟩ := List.mem_flatten.mp hrow
    have := hblockrow b hbm row hrb
    rw [keepAt_all fun i hi => hall2 i (by omega)]; rfl
  · have hj : j < sel.length := by rw [← hsel2len]; exact (List.getElem?_eq_some_iff.mp e1).1
    rw [hsel2get j _ (List.getElem?_eq_getElem hj)] at e1
    cases e1
    obtain ⟨b, f1, f2⟩ := hrow2 n₁ a4 hpn j _ (List.getElem?_eq_getElem hj)
    rw [f2] at e2; cases e2

end Variant.Laws
end TwoLayer
