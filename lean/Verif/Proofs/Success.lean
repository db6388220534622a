import Verif.Proofs.Feedback

/-! # `run_scenarios`: exactly when it succeeds -/

set_option linter.unusedSimpArgs false
set_option linter.unusedSectionVars false

namespace TwoLayer
variable {N α σ : Type} [Fintype N] [DecidableEq N] [Arith α] [DecidableEq α]

namespace Variant.Laws
variable {V : Variant N α σ} {R : Registry N α} (L : V.Laws R)

/-- annotated metadata are distinct iff the originals are distinguishable -/
theorem annotate_inj {name : String} {ps : List (String × Qty N α)} (hps : (ps.map Prod.fst).Nodup ∧ ∀ p ∈ ps, NoSpace p.1)
    {r r' : Row α} (hk : r.info.map Prod.fst = r'.info.map Prod.fst) (hn : (r.info.map Prod.fst).Nodup) :
    annotate name (parasMeta R ps) r.info = annotate name (parasMeta R ps) r'.info ↔ ¬ Distinguishable R ps r r' := by
  obtain ⟨a1, a2, a3⟩ := annotate_meta (R := R) hps (name := name) r.info
  obtain ⟨b1, b2, b3⟩ := annotate_meta (R := R) hps (name := name) r'.info
  constructor
  · rintro he ⟨c, h1, h2, h3⟩
    apply h3
    rw [← a3 c h1 h2, ← b3 c h1 h2, he]
  · intro hd
    apply Meta.ext_of_keys
    · unfold annotate
      apply foldl_set_keys
      rw [Meta.keys_set, Meta.keys_set]
      unfold Meta.keys
      rw [hk]
    · unfold annotate
      exact foldl_set_nodup (Meta.nodup_keys_set hn)
    · intro c
      by_cases h1 : c = "climate_model"
      · subst h1; rw [a1, b1]
      · by_cases h2 : ∃ p ∈ ps, c = paramColumn R p
        · obtain ⟨p, hp, rfl⟩ := h2
          rw [a2 p hp, b2 p hp]
        · have h2' : ∀ p ∈ ps, c ≠ paramColumn R p := fun p hp e => h2 ⟨p, hp, e⟩
          rw [a3 c h1 h2', b3 c h1 h2']
          by_contra hne
          exact hd ⟨c, h1, h2', hne⟩

theorem annotated_nodup {ps : List (String × Qty N α)} (hps : (ps.map Prod.fst).Nodup ∧ ∀ p ∈ ps, NoSpace p.1)
    {sel : List (Row α)} (hk : ∀ r ∈ sel, ∀ r' ∈ sel, r.info.map Prod.fst = r'.info.map Prod.fst)
    (hn : ∀ r ∈ sel, (r.info.map Prod.fst).Nodup) :
    ((annotated V R ps sel).map Row.info).Nodup ↔
      ∀ (i j : Nat) (r r' : Row α), i ≠ j → sel[i]? = some r → sel[j]? = some r' → Distinguishable R ps r r' := by
  rw [List.nodup_iff_getElem?_ne_getElem?]
  constructor
  · intro h i j r r' hij hi hj
    by_contra hd
    rw [← annotate_inj (name := V.name) hps (hk _ (List.mem_of_getElem? hi) _ (List.mem_of_getElem? hj))
      (hn _ (List.mem_of_getElem? hi))] at hd
    have hil := (List.getElem?_eq_some_iff.mp hi).1
    have hjl := (List.getElem?_eq_some_iff.mp hj).1
    rcases Nat.lt_or_gt_of_ne hij with hlt | hlt
    · exact h i j hlt (by simpa using hjl) (by simp [annotated, List.getElem?_map, hi, hj, hd])
    · exact h j i hlt (by simpa using hil) (by simp [annotated, List.getElem?_map, hi, hj, hd])
  · intro h i j hij hj he
    have hj' : j < sel.length := by simpa using hj
    have hi' : i < sel.length := by omega
    have e1 : sel[i]? = some sel[i] := List.getElem?_eq_getElem hi'
    have e2 : sel[j]? = some sel[j] := List.getElem?_eq_getElem hj'
    have hd := h i j _ _ (by omega) e1 e2
    apply (annotate_inj (R := R) (name := V.name) hps (hk _ (List.mem_of_getElem? e1) _ (List.mem_of_getElem? e2))
      (hn _ (List.mem_of_getElem? e1))).mp ?_ hd
    simpa [annotated, List.getElem?_map, e1, e2] using he

include L

/-- exactly when a call succeeds -/
theorem succeeds_iff {m : σ} (h : L.Inv m) {dv : String} {scen : ScmRun α} (hw : scen.WellFormed) :
    (∃ out, (runScenarios V R dv scen m).2 = .ok out) ↔
      scen.rows.filter (selects dv) ≠ [] ∧
      (∀ (i j : Nat) (r r' : Row α), i ≠ j → (scen.rows.filter (selects dv))[i]? = some r →
        (scen.rows.filter (selects dv))[j]? = some r' → Distinguishable R (L.params (L.pub m)) r r') ∧
      ∃ ts m₁, selectTimestep scen.times = .ok ts ∧ V.setDeltaT (.qty (ts.qty R)) m = (m₁, .ok ()) ∧
        ∀ r ∈ scen.rows.filter (selects dv), present r.vals ≠ [] ∧
          (∀ n ∈ L.names, ¬ (r.info.get "variable" = some (.str n.1) ∧ r.info.get "unit" = some (.str n.2))) ∧
          ∃ us u, r.info.get "unit" = some (.str us) ∧ R.parse us = some u ∧
            ∃ m₂, V.simulate (.qty ⟨1, present r.vals⟩ u) m₁ = (m₂, .ok ()) := by
  have hps := L.params_names (L.pub m)
  have hsub : ∀ r ∈ scen.rows.filter (selects dv), r ∈ scen.rows := fun r hr => (List.mem_filter.mp hr).1
  have hnd := annotated_nodup (V := V) (R := R) hps (sel := scen.rows.filter (selects dv))
    (fun r hr r' hr' => hw.columns r (hsub r hr) r' (hsub r' hr')) (fun r hr => hw.nodup r (hsub r hr))
  rw [← hnd]
  rcases L.runScenarios_spec h dv scen with ⟨a1, a2⟩ | ⟨a1, e, a2, a3⟩ | ⟨a1, ts, m₁, a2, a3, a4, a5, a6⟩
  · rw [a2]
    constructor
    · rintro ⟨_, hh⟩; cases hh
    · rintro ⟨hh, _⟩; exact absurd a1 hh
  · rw [a3]
    constructor
    · rintro ⟨_, hh⟩; cases hh
    · rintro ⟨_, _, ts, m₁, hh, _⟩; rw [a2] at hh; cases hh
  · rcases a6 with ⟨a6, a7⟩ | ⟨a6, _, _, a8⟩
    · rw [a7]
      constructor
      · rintro ⟨_, hh⟩; cases hh
      · rintro ⟨_, hh, _⟩; exact absurd hh a6
    · have hget : ∀ (j : Nat) (r : Row α), (scen.rows.filter (selects dv))[j]? = some r →
          (annotated V R (L.params (L.pub m)) (scen.rows.filter (selects dv)))[j]? =
            some { r with info := annotate V.name (parasMeta R (L.params (L.pub m))) r.info } := by
        intro j r hj; simp [annotated, List.getElem?_map, hj]
      have key : ∀ (j : Nat) (r : Row α),
          (∃ b, rowRes V R m₁ j { r with info := annotate V.name (parasMeta R (L.params (L.pub m))) r.info } = .ok b) ↔
          present r.vals ≠ [] ∧
          (∀ n ∈ L.names, ¬ (r.info.get "variable" = some (.str n.1) ∧ r.info.get "unit" = some (.str n.2))) ∧
          ∃ us u, r.info.get "unit" = some (.str us) ∧ R.parse us = some u ∧
            ∃ m₂, V.simulate (.qty ⟨1, present r.vals⟩ u) m₁ = (m₂, .ok ()) := by
        intro j r
        constructor
        · rintro ⟨b, hb⟩
          obtain ⟨us, u, m₂, g1, g2, g3, g4, g5, -⟩ := L.rowRes_ok hb
          simp only at g1 g3 g4
          rw [annotated_get_unit _ hps] at g1
          refine ⟨g4, ?_, us, u, g1, g2, m₂, g3⟩
          intro n hn
          rw [← L.out_names m₂] at hn
          obtain ⟨o, ho, rfl⟩ := List.mem_map.mp hn
          exact createInfo_distinct hps g5 o ho
        · rintro ⟨g4, g5, us, u, g1, g2, m₂, g3⟩
          refine ⟨_, L.rowRes_of j (us := us) (u := u) (m₂ := m₂) ?_ g2 g3 g4 ?_⟩
          · simp only; rw [annotated_get_unit _ hps]; exact g1
          · have hnn := L.names_nodup
            rw [← L.out_names m₂, List.map_map] at hnn
            refine createInfo_nodup hps hnn ?_
            intro o ho
            refine g5 (o.1, o.2.1) ?_
            rw [← L.out_names m₂]
            exact List.mem_map.mpr ⟨o, ho, rfl⟩
      constructor
      · intro _
        refine ⟨a1, a6, ts, m₁, a2, a3, ?_⟩
        intro r hr
        obtain ⟨j, hj⟩ := List.mem_iff_getElem?.mp hr
        rw [← key j r]
        rcases a8 with ⟨bl, _, e2, _⟩ | ⟨j', r', e, e1, e2, e3⟩
        · obtain ⟨b, _, hb⟩ := e2 j _ (hget j r hj)
          exact ⟨b, hb⟩
        · rename_i hex
          obtain ⟨out, hex⟩ := hex
          rw [hex] at e3; cases e3
      · rintro ⟨_, _, ts', m₁', c2, c3, hall⟩
        rw [a2] at c2; cases c2
        rw [a3] at c3; cases c3
        rcases a8 with ⟨bl, _, e2, e3⟩ | ⟨j', r', e, e1, e2, e3⟩
        · exact ⟨_, e3⟩
        · exfalso
          simp only [annotated, List.getElem?_map, Option.map_eq_some_iff] at e1
          obtain ⟨r, hr, rfl⟩ := e1
          obtain ⟨b, hb⟩ := (key j' r).mpr (hall r (List.mem_of_getElem? hr))
          rw [hb] at e2; cases e2

end Variant.Laws
end TwoLayer
