import Verif.Proofs.Scen
import Verif.Props.State

/-! # `run_scenarios`, generically in the model class -/

set_option linter.unusedSimpArgs false
set_option linter.unusedSectionVars false

namespace TwoLayer
variable {N α σ : Type} [Fintype N] [DecidableEq N] [Arith α] [DecidableEq α]

/-- What the generic analysis needs of a model class; proved for both classes below. -/
structure Variant.Laws (V : Variant N α σ) (R : Registry N α) where
  K : Type
  /-- the invariant of reachable objects -/
  Inv : σ → Prop
  /-- the public parameters -/
  pub : σ → K
  withDt : K → Qty N α → K
  withDt_withDt : ∀ k q q', withDt (withDt k q) q' = withDt k q'
  params : K → List (String × Qty N α)
  /-- (variable, unit) of the outputs -/
  names : List (String × String)
  params_eq : ∀ m, V.saveParas m = params (pub m)
  params_dt : ∀ k q, params (withDt k q) = params k
  params_names : ∀ k, ((params k).map Prod.fst).Nodup ∧ ∀ p ∈ params k, NoSpace p.1
  names_nodup : (names.map Prod.fst).Nodup
  setDt : ∀ m q, Inv m → (q.unit = R.yr ∨ q.unit = R.mon) →
    ∃ m₁, V.setDeltaT (.qty q) m = (m₁, .ok ()) ∧ Inv m₁ ∧ pub m₁ = withDt (pub m) q
  sim_congr : ∀ m₁ m₂ d, Inv m₁ → Inv m₂ → pub m₁ = pub m₂ → (V.simulate d m₁).2 = (V.simulate d m₂).2 ∧
    ((V.simulate d m₁).2 = .ok () → (V.simulate d m₁).1 = (V.simulate d m₂).1)
  sim_inv : ∀ m d, Inv m → Inv (V.simulate d m).1 ∧ pub (V.simulate d m).1 = pub m
  sim_len : ∀ m m' vals u, V.simulate (.qty ⟨1, vals⟩ u) m = (m', .ok ()) → ∀ o ∈ V.outputs m', o.2.2.length = vals.length
  out_names : ∀ m, (V.outputs m).map (fun o => (o.1, o.2.1)) = names

namespace Variant.Laws
variable {V : Variant N α σ} {R : Registry N α} (L : V.Laws R)

/-- what one scenario yields on an object, forgetting the object -/
def rowRes (V : Variant N α σ) (R : Registry N α) (m : σ) (i : Nat) (row : Row α) : Except Err (List (Row α)) :=
  (runRow V R i row m).2

/-- the rows of one scenario, from the outputs -/
def mkBlock (row : Row α) (outs : List (String × String × List α)) : List (Row α) :=
  (⟨row.info, scatter row.vals (present row.vals)⟩ : Row α) ::
    outs.map fun o => (⟨createInfo row.info o.2.1 o.1, scatter row.vals o.2.2⟩ : Row α)

/-- number the rows -/
def number (i : Nat) (rows : List (Row α)) : List (Row α) := rows.map fun r => { r with info := r.info.set "run_idx" (.int i) }

/-- `runRow` through `simulate` -/
theorem runRow_eq (V : Variant N α σ) (R : Registry N α) (i : Nat) (row : Row α) (m : σ) :
    runRow V R i row m = match row.info.get "unit" with
      | some (.str us) => match R.parse us with
        | none => (m, .error .undefinedUnit)
        | some u => match V.simulate (.qty ⟨1, present row.vals⟩ u) m with
          | (m', .error e) => (m', .error e)
          | (m', .ok _) =>
            if (present row.vals).isEmpty then (m', .error .noData)
            else if !(decide ((mkBlock row (V.outputs m')).map Row.info).Nodup) then (m', .error .nonUniqueMeta)
            else (m', .ok (number i (mkBlock row (V.outputs m'))))
      | _ => (m, .error .key) := by
  unfold runRow
  cases hg : row.info.get "unit" with
  | none => rfl
  | some v =>
    cases v with
    | num x => rfl
    | int n => rfl
    | str us =>
      simp only
      cases hp : R.parse us with
      | none => rfl
      | some u =>
        simp only [Variant.simulate, Py.bind_apply, dropna_eq]
        rcases h1 : V.setDrivers (.qty ⟨1, present row.vals⟩ u) m with ⟨m1, e | a⟩
        · rfl
        · simp only
          rcases h2 : V.reset m1 with ⟨m2, e | a⟩
          · rfl
          · simp only
            rcases h3 : V.run m2 with ⟨m3, e | a⟩
            · rfl
            · simp only [Py.get_apply]
              by_cases he : (present row.vals).isEmpty = true
              · rw [if_pos (c := (present row.vals).isEmpty = true) (t := (m3, Except.error Err.noData)) he]
                exact congrFun (if_pos he) m3
              · rw [if_neg (c := (present row.vals).isEmpty = true) (t := (m3, Except.error Err.noData)) he]
                refine (congrFun (if_neg he) m3).trans ?_
                by_cases hn : (!decide ((mkBlock row (V.outputs m3)).map Row.info).Nodup) = true
                · rw [if_pos hn]
                  exact congrFun (if_pos hn) m3
                · rw [if_neg hn]
                  exact congrFun (if_neg hn) m3

include L

/-- the outcome of a scenario depends on the public parameters only; the object keeps them -/
theorem runRow_congr {m₁ m₂ : σ} (h₁ : L.Inv m₁) (h₂ : L.Inv m₂) (hp : L.pub m₁ = L.pub m₂) (i : Nat) (row : Row α) :
    rowRes V R m₁ i row = rowRes V R m₂ i row ∧ L.Inv (runRow V R i row m₁).1 ∧
      L.pub (runRow V R i row m₁).1 = L.pub m₁ := by
  unfold rowRes
  rw [runRow_eq, runRow_eq]
  cases hg : row.info.get "unit" with
  | none => exact ⟨rfl, h₁, rfl⟩
  | some v =>
    cases v with
    | num x => exact ⟨rfl, h₁, rfl⟩
    | int n => exact ⟨rfl, h₁, rfl⟩
    | str us =>
      simp only
      cases hps : R.parse us with
      | none => exact ⟨rfl, h₁, rfl⟩
      | some u =>
        simp only
        obtain ⟨hc1, hc2⟩ := L.sim_congr m₁ m₂ (.qty ⟨1, present row.vals⟩ u) h₁ h₂ hp
        obtain ⟨hi, hk⟩ := L.sim_inv m₁ (.qty ⟨1, present row.vals⟩ u) h₁
        rcases hs1 : V.simulate (.qty ⟨1, present row.vals⟩ u) m₁ with ⟨a, e | x⟩
        · rcases hs2 : V.simulate (.qty ⟨1, present row.vals⟩ u) m₂ with ⟨b, e' | y⟩
          · rw [hs1, hs2] at hc1
            rw [hs1] at hi hk
            cases hc1
            exact ⟨rfl, hi, hk⟩
          · rw [hs1, hs2] at hc1; cases hc1
        · rcases hs2 : V.simulate (.qty ⟨1, present row.vals⟩ u) m₂ with ⟨b, e' | y⟩
          · rw [hs1, hs2] at hc1; cases hc1
          · rw [hs1, hs2] at hc2
            rw [hs1] at hi hk
            have : a = b := hc2 rfl
            subst this
            simp only
            refine ⟨trivial, ?_⟩
            split
            · exact ⟨hi, hk⟩
            · split
              · exact ⟨hi, hk⟩
              · exact ⟨hi, hk⟩

/-- the loop: outcome by scenario, each on the reference object `m₀` -/
theorem runRows_spec {m₀ : σ} (h₀ : L.Inv m₀) (rows : List (Row α)) : ∀ (i : Nat) (m : σ), L.Inv m → L.pub m = L.pub m₀ →
    L.Inv (runRows V R i rows m).1 ∧ L.pub (runRows V R i rows m).1 = L.pub m₀ ∧
    ((∃ blocks : List (List (Row α)), blocks.length = rows.length ∧
        (∀ (j : Nat) (r : Row α), rows[j]? = some r → ∃ b, blocks[j]? = some b ∧ rowRes V R m₀ (i + j) r = .ok b) ∧
        (runRows V R i rows m).2 = .ok blocks.flatten) ∨
     (∃ (j : Nat) (r : Row α) (e : Err), rows[j]? = some r ∧ rowRes V R m₀ (i + j) r = .error e ∧
        (∀ (j' : Nat) (r' : Row α), j' < j → rows[j']? = some r' → ∃ b, rowRes V R m₀ (i + j') r' = .ok b) ∧
        (runRows V R i rows m).2 = .error e)) := by
  induction rows with
  | nil =>
    intro i m hm hp
    exact ⟨hm, hp, Or.inl ⟨[], rfl, by simp, rfl⟩⟩
  | cons r rest ih =>
    intro i m hm hp
    obtain ⟨hc, hi, hk⟩ := L.runRow_congr hm h₀ hp i r
    simp only [runRows, Py.bind_apply]
    unfold rowRes at hc
    rcases hr : runRow V R i r m with ⟨m1, e | out⟩
    · rw [hr] at hc hi hk
      refine ⟨hi, hk.trans hp, Or.inr ⟨0, r, e, rfl, ?_, fun j' _ h => absurd h (by omega), rfl⟩⟩
      unfold rowRes
      exact hc.symm
    · rw [hr] at hc hi hk
      obtain ⟨hi', hk', hcase⟩ := ih (i + 1) m1 hi (hk.trans hp)
      simp only
      rcases hrest : runRows V R (i + 1) rest m1 with ⟨m2, e | more⟩
      · rw [hrest] at hi' hk' hcase
        refine ⟨hi', hk', Or.inr ?_⟩
        rcases hcase with ⟨blocks, -, -, h⟩ | ⟨j, r', e', hj, he, hlt, h⟩
        · cases h
        · cases h
          refine ⟨j + 1, r', e, hj, by rw [show i + (j + 1) = i + 1 + j by omega]; exact he, ?_, rfl⟩
          intro j' r'' hj' hr''
          cases j' with
          | zero =>
            simp at hr''; subst hr''
            exact ⟨out, by unfold rowRes; simpa using hc.symm⟩
          | succ j' =>
            rw [show i + (j' + 1) = i + 1 + j' by omega]
            exact hlt j' r'' (by omega) (by simpa using hr'')
      · rw [hrest] at hi' hk' hcase
        refine ⟨hi', hk', Or.inl ?_⟩
        rcases hcase with ⟨blocks, hl, hb, h⟩ | ⟨j, r', e', hj, he, hlt, h⟩
        · cases h
          refine ⟨out :: blocks, by simp [hl], ?_, by simp⟩
          intro j r' hj
          cases j with
          | zero =>
            simp at hj; subst hj
            exact ⟨out, rfl, by unfold rowRes; simpa using hc.symm⟩
          | succ j =>
            obtain ⟨b, hb1, hb2⟩ := hb j r' (by simpa using hj)
            exact ⟨b, by simpa using hb1, by rw [show i + (j + 1) = i + 1 + j by omega]; exact hb2⟩
        · cases h

omit L in
/-- the driver rows after annotation -/
abbrev annotated (V : Variant N α σ) (R : Registry N α) (ps : List (String × Qty N α)) (sel : List (Row α)) : List (Row α) :=
  sel.map fun r => { r with info := annotate V.name (parasMeta R ps) r.info }

/-- every way a call of `run_scenarios` can go -/
theorem runScenarios_spec {m : σ} (h : L.Inv m) (dv : String) (scen : ScmRun α) :
    (scen.rows.filter (selects dv) = [] ∧
      runScenarios V R dv scen m = (m, .error (.value "No World data available for driver_var"))) ∨
    (scen.rows.filter (selects dv) ≠ [] ∧ ∃ e, selectTimestep scen.times = .error e ∧
      runScenarios V R dv scen m = (m, .error e)) ∨
    (scen.rows.filter (selects dv) ≠ [] ∧ ∃ ts m₁, selectTimestep scen.times = .ok ts ∧
      V.setDeltaT (.qty (ts.qty R)) m = (m₁, .ok ()) ∧ L.Inv m₁ ∧ L.pub m₁ = L.withDt (L.pub m) (ts.qty R) ∧
      ((¬ ((annotated V R (L.params (L.pub m)) (scen.rows.filter (selects dv))).map Row.info).Nodup ∧
          runScenarios V R dv scen m = (m₁, .error .nonUniqueMeta)) ∨
       (((annotated V R (L.params (L.pub m)) (scen.rows.filter (selects dv))).map Row.info).Nodup ∧
         L.Inv (runScenarios V R dv scen m).1 ∧ L.pub (runScenarios V R dv scen m).1 = L.pub m₁ ∧
         ((∃ blocks : List (List (Row α)), blocks.length = (scen.rows.filter (selects dv)).length ∧
            (∀ (j : Nat) (r : Row α), (annotated V R (L.params (L.pub m)) (scen.rows.filter (selects dv)))[j]? = some r →
              ∃ b, blocks[j]? = some b ∧ rowRes V R m₁ j r = .ok b) ∧
            (runScenarios V R dv scen m).2 = .ok (concatRuns scen.times
              (annotated V R (L.params (L.pub m)) (scen.rows.filter (selects dv))) blocks.flatten)) ∨
          (∃ (j : Nat) (r : Row α) (e : Err),
            (annotated V R (L.params (L.pub m)) (scen.rows.filter (selects dv)))[j]? = some r ∧
            rowRes V R m₁ j r = .error e ∧ (runScenarios V R dv scen m).2 = .error e))))) := by
  have hps := L.params_eq m
  by_cases hsel : scen.rows.filter (selects dv) = []
  · refine Or.inl ⟨hsel, ?_⟩
    simp [runScenarios, hsel]
  · refine Or.inr ?_
    have hne : (scen.rows.filter (selects dv)).isEmpty = false := by
      cases h : scen.rows.filter (selects dv) <;> simp_all
    cases hts : selectTimestep scen.times with
    | error e =>
      refine Or.inl ⟨hsel, e, rfl, ?_⟩
      simp [runScenarios, hne, hts]
    | ok ts =>
      refine Or.inr ⟨hsel, ts, ?_⟩
      obtain ⟨m₁, hm₁, hi, hk⟩ := L.setDt m (ts.qty R) h (by cases ts <;> simp [Timestep.qty])
      refine ⟨m₁, rfl, hm₁, hi, hk, ?_⟩
      have hrun : runScenarios V R dv scen m =
          (if (!decide ((annotated V R (L.params (L.pub m)) (scen.rows.filter (selects dv))).map Row.info).Nodup) = true
            then Py.throw .nonUniqueMeta
            else (do
              let out ← runRows V R 0 (annotated V R (L.params (L.pub m)) (scen.rows.filter (selects dv)))
              pure (concatRuns scen.times (annotated V R (L.params (L.pub m)) (scen.rows.filter (selects dv))) out) :
                Py σ (ScmRun α))) m₁ := by
        simp only [runScenarios, Py.bind_apply, Py.get_apply, hne, hts, hps]
        refine (congrFun (if_neg (by simp)) m).trans ?_
        simp only [Py.bind_apply, Py.lift_apply, hm₁]
      by_cases hn : ((annotated V R (L.params (L.pub m)) (scen.rows.filter (selects dv))).map Row.info).Nodup
      · refine Or.inr ⟨hn, ?_⟩
        rw [hrun, if_neg (by simpa using hn)]
        simp only [Py.bind_apply]
        obtain ⟨h1, h2, h3⟩ := L.runRows_spec hi
          (annotated V R (L.params (L.pub m)) (scen.rows.filter (selects dv))) 0 m₁ hi rfl
        rcases hr : runRows V R 0 (annotated V R (L.params (L.pub m)) (scen.rows.filter (selects dv))) m₁ with ⟨m2, e | out⟩
        · rw [hr] at h1 h2 h3
          refine ⟨h1, h2, Or.inr ?_⟩
          rcases h3 with ⟨_, _, _, h3⟩ | ⟨j, r, e', hj, he, -, h3⟩
          · cases h3
          · cases h3
            exact ⟨j, r, e, hj, by simpa using he, rfl⟩
        · rw [hr] at h1 h2 h3
          refine ⟨h1, h2, Or.inl ?_⟩
          rcases h3 with ⟨blocks, hl, hb, h3⟩ | ⟨j, r, e', hj, he, -, h3⟩
          · cases h3
            refine ⟨blocks, by simpa using hl, ?_, rfl⟩
            intro j r hj
            simpa using hb j r hj
          · cases h3
      · refine Or.inl ⟨hn, ?_⟩
        rw [hrun, if_pos (by simpa using hn)]
        rfl

/-- a successful scenario -/
theorem rowRes_ok {m : σ} {i : Nat} {row : Row α} {b : List (Row α)} (h : rowRes V R m i row = .ok b) :
    ∃ us u m₂, row.info.get "unit" = some (.str us) ∧ R.parse us = some u ∧
      V.simulate (.qty ⟨1, present row.vals⟩ u) m = (m₂, .ok ()) ∧ present row.vals ≠ [] ∧
      ((mkBlock row (V.outputs m₂)).map Row.info).Nodup ∧ b = number i (mkBlock row (V.outputs m₂)) := by
  unfold rowRes at h
  rw [runRow_eq] at h
  cases hg : row.info.get "unit" with
  | none => rw [hg] at h; cases h
  | some v =>
    rw [hg] at h
    cases v with
    | num x => cases h
    | int n => cases h
    | str us =>
      simp only at h
      cases hps : R.parse us with
      | none => rw [hps] at h; cases h
      | some u =>
        rw [hps] at h
        simp only at h
        rcases hs : V.simulate (.qty ⟨1, present row.vals⟩ u) m with ⟨m2, e | x⟩
        · rw [hs] at h; cases h
        · rw [hs] at h
          simp only at h
          split at h
          · cases h
          · next he =>
            split at h
            · cases h
            · next hn =>
              cases h
              refine ⟨us, u, m2, rfl, hps, hs, ?_, by simpa using hn, rfl⟩
              intro h0; rw [h0] at he; simp at he

/-- conversely -/
theorem rowRes_of {m m₂ : σ} (i : Nat) {row : Row α} {us : String} {u : Units N}
    (h1 : row.info.get "unit" = some (.str us)) (h2 : R.parse us = some u)
    (h3 : V.simulate (.qty ⟨1, present row.vals⟩ u) m = (m₂, .ok ())) (h4 : present row.vals ≠ [])
    (h5 : ((mkBlock row (V.outputs m₂)).map Row.info).Nodup) :
    rowRes V R m i row = .ok (number i (mkBlock row (V.outputs m₂))) := by
  unfold rowRes
  rw [runRow_eq, h1]
  simp only [h2, h3]
  rw [if_neg (by simpa using h4), if_neg (by simpa using h5)]

omit L in
/-- blocks of equal size: rows by number -/
theorem flatten_getElem? {β : Type} {n : Nat} : ∀ {blocks : List (List β)}, (∀ b ∈ blocks, b.length = n) →
    ∀ (i k : Nat), k < n → blocks.flatten[n * i + k]? = (blocks[i]?).bind (fun b => b[k]?) := by
  intro blocks
  induction blocks with
  | nil => intro _ i k _; simp
  | cons b bs ih =>
    intro h i k hk
    have hb := h b (by simp)
    simp only [List.flatten_cons]
    cases i with
    | zero => rw [List.getElem?_append_left (by omega)]; simp
    | succ i =>
      rw [List.getElem?_append_right (by rw [hb]; nlinarith), hb,
        show n * (i + 1) + k - n = n * i + k by rw [Nat.mul_add]; omega, ih (fun b hb => h b (by simp [hb])) i k hk]
      simp

omit L in
theorem flatten_length {β : Type} {n : Nat} : ∀ {blocks : List (List β)}, (∀ b ∈ blocks, b.length = n) →
    blocks.flatten.length = n * blocks.length := by
  intro blocks
  induction blocks with
  | nil => intro _; simp
  | cons b bs ih =>
    intro h
    rw [List.flatten_cons, List.length_append, ih (fun b hb => h b (by simp [hb])), h b (by simp)]
    simp; ring

omit L in
theorem paramColumn_ne (R : Registry N α) (p : String × Qty N α) {c : String} (hc : NoSpace c) : paramColumn R p ≠ c := by
  rintro rfl
  exact paraCol_space R p hc

omit L in
/-- metadata of the annotated driver -/
theorem annotate_meta {name : String} {ps : List (String × Qty N α)}
    (hps : (ps.map Prod.fst).Nodup ∧ ∀ p ∈ ps, NoSpace p.1) (m : Meta α) :
    (annotate name (parasMeta R ps) m).get "climate_model" = some (.str name) ∧
    (∀ p ∈ ps, (annotate name (parasMeta R ps) m).get (paramColumn R p) = some (.num p.2.mag)) ∧
    (∀ c, c ≠ "climate_model" → (∀ p ∈ ps, c ≠ paramColumn R p) → (annotate name (parasMeta R ps) m).get c = m.get c) := by
  have hkeys : (parasMeta R ps).keys = ps.map (paramColumn R) := by
    simp [Meta.keys, parasMeta, paramColumn]
  have hnd : (parasMeta R ps).keys.Nodup := by
    rw [hkeys]
    rw [List.nodup_map_iff_inj_on (List.Nodup.of_map _ hps.1)]
    intro p hp q hq he
    have h1 := paraCol_inj R (hps.2 p hp) (hps.2 q hq) he
    exact List.inj_on_of_nodup_map hps.1 hp hq h1
  unfold annotate
  refine ⟨?_, ?_, ?_⟩
  · rw [foldl_set_get_not_mem, Meta.get_set_self]
    rw [hkeys]
    intro hmem
    obtain ⟨p, -, hp⟩ := List.mem_map.mp hmem
    exact paramColumn_ne R p (by decide) hp
  · intro p hp
    exact foldl_set_get_mem hnd _ (kv := (paramColumn R p, .num p.2.mag)) (by
      unfold parasMeta
      exact List.mem_map.mpr ⟨p, hp, rfl⟩)
  · intro c hc hp
    rw [foldl_set_get_not_mem, Meta.get_set_ne hc]
    rw [hkeys]
    intro hmem
    obtain ⟨p, hpm, hpc⟩ := List.mem_map.mp hmem
    exact hp p hpm hpc.symm

omit L in
/-- metadata of an output series -/
theorem output_meta {name : String} {ps : List (String × Qty N α)}
    (hps : (ps.map Prod.fst).Nodup ∧ ∀ p ∈ ps, NoSpace p.1) (m : Meta α) (i : Nat) (u v : String) :
    OutputMeta R name ps m i (some (.str v)) (some (.str u))
      ((createInfo (annotate name (parasMeta R ps) m) u v).set "run_idx" (.int i)) := by
  obtain ⟨h1, h2, h3⟩ := annotate_meta (R := R) hps (name := name) m
  have g : ∀ c, ((createInfo (annotate name (parasMeta R ps) m) u v).set "run_idx" (.int i)).get c =
      if c = "run_idx" then some (.int i) else if c = "variable" then some (.str v) else if c = "unit" then some (.str u)
      else (annotate name (parasMeta R ps) m).get c := by
    intro c
    rw [Meta.get_set, createInfo, Meta.get_set, Meta.get_set]
  constructor
  · rw [g]; simp
  · rw [g]; simpa using h1
  · rw [g]; simp
  · rw [g]; simp
  · intro p hp
    rw [g, if_neg (paramColumn_ne R p (by decide)), if_neg (paramColumn_ne R p (by decide)),
      if_neg (paramColumn_ne R p (by decide))]
    exact h2 p hp
  · intro c c1 c2 c3 c4 c5
    rw [g, if_neg c1, if_neg c3, if_neg c4, h3 c c2 c5]

omit L in
/-- metadata of the returned driver series -/
theorem driver_meta {name : String} {ps : List (String × Qty N α)}
    (hps : (ps.map Prod.fst).Nodup ∧ ∀ p ∈ ps, NoSpace p.1) (m : Meta α) (i : Nat) :
    OutputMeta R name ps m i (m.get "variable") (m.get "unit")
      ((annotate name (parasMeta R ps) m).set "run_idx" (.int i)) := by
  obtain ⟨h1, h2, h3⟩ := annotate_meta (R := R) hps (name := name) m
  constructor
  · simp
  · rw [Meta.get_set_ne (by decide)]; exact h1
  · rw [Meta.get_set_ne (by decide), h3 _ (by decide) (fun p _ => (paramColumn_ne R p (by decide)).symm)]
  · rw [Meta.get_set_ne (by decide), h3 _ (by decide) (fun p _ => (paramColumn_ne R p (by decide)).symm)]
  · intro p hp
    rw [Meta.get_set_ne (paramColumn_ne R p (by decide))]
    exact h2 p hp
  · intro c c1 c2 c3 c4 c5
    rw [Meta.get_set_ne c1, h3 c c2 c5]

end Variant.Laws
end TwoLayer
