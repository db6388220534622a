import Verif.Proofs.Variant
import Verif.Props.Run

/-! # `run_scenarios`: the returned frame, and both classes satisfy the laws -/

set_option linter.unusedSimpArgs false
set_option linter.unusedSectionVars false

namespace TwoLayer
variable {N α σ : Type} [Fintype N] [DecidableEq N] [Arith α] [DecidableEq α]

namespace Variant.Laws
variable {V : Variant N α σ} {R : Registry N α} (L : V.Laws R)

/-- rows per scenario -/
def size : Nat := L.names.length + 1

theorem outputs_length (m : σ) : (V.outputs m).length = L.names.length := by
  rw [← L.out_names m, List.length_map]

theorem number_mkBlock_length (i : Nat) (row : Row α) (m : σ) : (number i (mkBlock row (V.outputs m))).length = L.size := by
  simp [number, mkBlock, L.outputs_length, size]

theorem annotated_get_unit (ps : List (String × Qty N α)) (hps : (ps.map Prod.fst).Nodup ∧ ∀ p ∈ ps, NoSpace p.1)
    (name : String) (m : Meta α) : (annotate name (parasMeta R ps) m).get "unit" = m.get "unit" :=
  (annotate_meta (R := R) hps (name := name) m).2.2 _ (by decide) (fun p _ => (paramColumn_ne R p (by decide)).symm)

/-- distinct metadata within a scenario: the driver does not have the name and unit of an output -/
theorem createInfo_distinct {ps : List (String × Qty N α)} (hps : (ps.map Prod.fst).Nodup ∧ ∀ p ∈ ps, NoSpace p.1)
    {name : String} {r : Row α} {outs : List (String × String × List α)}
    (h : ((mkBlock { r with info := annotate name (parasMeta R ps) r.info } outs).map Row.info).Nodup) :
    ∀ o ∈ outs, ¬ (r.info.get "variable" = some (.str o.1) ∧ r.info.get "unit" = some (.str o.2.1)) := by
  rintro o ho ⟨h1, h2⟩
  have hv : (annotate name (parasMeta R ps) r.info).get "variable" = some (.str o.1) := by
    rw [(annotate_meta (R := R) hps (name := name) r.info).2.2 _ (by decide) (fun p _ => (paramColumn_ne R p (by decide)).symm)]
    exact h1
  have hu : (annotate name (parasMeta R ps) r.info).get "unit" = some (.str o.2.1) := by
    rw [annotated_get_unit _ hps]; exact h2
  simp only [mkBlock, List.map_cons, List.nodup_cons, List.map_map] at h
  apply h.1
  refine List.mem_map.mpr ⟨o, ho, ?_⟩
  simp only [Function.comp, createInfo]
  rw [Meta.set_eq_of_get hu, Meta.set_eq_of_get hv]

/-- and conversely -/
theorem createInfo_nodup {ps : List (String × Qty N α)} (hps : (ps.map Prod.fst).Nodup ∧ ∀ p ∈ ps, NoSpace p.1)
    {name : String} {r : Row α} {outs : List (String × String × List α)} (hn : (outs.map Prod.fst).Nodup)
    (h : ∀ o ∈ outs, ¬ (r.info.get "variable" = some (.str o.1) ∧ r.info.get "unit" = some (.str o.2.1))) :
    ((mkBlock { r with info := annotate name (parasMeta R ps) r.info } outs).map Row.info).Nodup := by
  simp only [mkBlock, List.map_cons, List.nodup_cons, List.map_map]
  have gv : ∀ o : String × String × List α,
      (createInfo (annotate name (parasMeta R ps) r.info) o.2.1 o.1).get "variable" = some (.str o.1) := by
    intro o; simp [createInfo]
  have gu : ∀ o : String × String × List α,
      (createInfo (annotate name (parasMeta R ps) r.info) o.2.1 o.1).get "unit" = some (.str o.2.1) := by
    intro o; rw [createInfo, Meta.get_set_ne (by decide), Meta.get_set_self]
  constructor
  · intro hm
    obtain ⟨o, ho, he⟩ := List.mem_map.mp hm
    simp only [Function.comp] at he
    apply h o ho
    constructor
    · have := gv o
      rw [he, (annotate_meta (R := R) hps (name := name) r.info).2.2 _ (by decide)
        (fun p _ => (paramColumn_ne R p (by decide)).symm)] at this
      exact this
    · have := gu o
      rw [he, annotated_get_unit _ hps] at this
      exact this
  · rw [List.nodup_map_iff_inj_on (List.Nodup.of_map _ hn)]
    intro o ho o' ho' he
    simp only [Function.comp] at he
    have h1 := gv o
    rw [he, gv o'] at h1
    simp only [Option.some.injEq, MVal.str.injEq] at h1
    exact (List.inj_on_of_nodup_map hn ho' ho h1).symm

/-- the returned frame, series by series -/
theorem returned {m m' : σ} (h : L.Inv m) {dv : String} {scen out : ScmRun α}
    (hrun : runScenarios V R dv scen m = (m', .ok out)) :
    ∃ ts m₁, selectTimestep scen.times = .ok ts ∧ V.setDeltaT (.qty (ts.qty R)) m = (m₁, .ok ()) ∧ L.Inv m₁ ∧
      L.pub m₁ = L.withDt (L.pub m) (ts.qty R) ∧ L.Inv m' ∧ L.pub m' = L.pub m₁ ∧
      out.rows.length = L.size * (scen.rows.filter (selects dv)).length ∧
      ∀ (i : Nat) (r : Row α), (scen.rows.filter (selects dv))[i]? = some r →
        ∃ us u m₂, r.info.get "unit" = some (.str us) ∧ R.parse us = some u ∧
          V.simulate (.qty ⟨1, present r.vals⟩ u) m₁ = (m₂, .ok ()) ∧
          (∀ o ∈ V.outputs m₂, ¬ (r.info.get "variable" = some (.str o.1) ∧ r.info.get "unit" = some (.str o.2.1))) ∧
          ReturnedRow R V.name (L.params (L.pub m)) scen out i r (L.size * i) (r.info.get "variable") (r.info.get "unit")
            (present r.vals) ∧
          ∀ (k : Nat) (o : String × String × List α), (V.outputs m₂)[k]? = some o →
            ReturnedRow R V.name (L.params (L.pub m)) scen out i r (L.size * i + (k + 1)) (some (.str o.1))
              (some (.str o.2.1)) o.2.2 := by
  rcases L.runScenarios_spec h dv scen with ⟨_, h1⟩ | ⟨_, e, _, h1⟩ | ⟨_, ts, m₁, hts, hm₁, hi, hk, hcase⟩
  · rw [hrun] at h1; cases h1
  · rw [hrun] at h1; cases h1
  rcases hcase with ⟨_, h1⟩ | ⟨hn, hi', hk', hcase⟩
  · rw [hrun] at h1; cases h1
  rw [hrun] at hi' hk' hcase
  rcases hcase with ⟨blocks, hl, hb, hout⟩ | ⟨_, _, _, _, _, h1⟩
  swap
  · cases h1
  have hps := L.params_names (L.pub m)
  generalize hsel : scen.rows.filter (selects dv) = sel at *
  have hblk : ∀ b ∈ blocks, b.length = L.size := by
    intro b hbm
    obtain ⟨j, hj⟩ := List.mem_iff_getElem?.mp hbm
    have hjl : j < sel.length := by rw [← hl]; exact (List.getElem?_eq_some_iff.mp hj).1
    obtain ⟨b', hb1, hb2⟩ := hb j _ (by simp [annotated, List.getElem?_map, List.getElem?_eq_getElem hjl]; rfl)
    rw [hj] at hb1; cases hb1
    obtain ⟨us, u, m₂, _, _, _, _, _, rfl⟩ := L.rowRes_ok hb2
    exact L.number_mkBlock_length _ _ _
  cases hout
  refine ⟨ts, m₁, hts, hm₁, hi, hk, hi', hk', ?_, ?_⟩
  · simp only [concatRuns, List.length_map]
    rw [flatten_length hblk, hl]
  · intro i r hr
    have hann : (annotated V R (L.params (L.pub m)) sel)[i]? =
        some { r with info := annotate V.name (parasMeta R (L.params (L.pub m))) r.info } := by
      simp [annotated, List.getElem?_map, hr]
    obtain ⟨b, hb1, hb2⟩ := hb i _ hann
    obtain ⟨us, u, m₂, g1, g2, g3, g4, g5, rfl⟩ := L.rowRes_ok hb2
    simp only at g1 g3
    rw [annotated_get_unit _ hps] at g1
    refine ⟨us, u, m₂, g1, g2, g3, createInfo_distinct hps g5, ?_, ?_⟩
    · refine ⟨⟨(annotate V.name (parasMeta R (L.params (L.pub m))) r.info).set "run_idx" (.int i),
        keepAt (usedAt (annotated V R (L.params (L.pub m)) sel)) (scatter r.vals (present r.vals))⟩, ?_, ?_, ?_⟩
      · simp only [concatRuns, List.getElem?_map]
        have := flatten_getElem? hblk i 0 (by simp [size])
        rw [Nat.add_zero] at this
        rw [this, hb1]
        simp only [Option.bind_some, number, mkBlock, List.getElem?_map, List.getElem?_cons_zero, Option.map_some]
      · exact driver_meta hps r.info i
      · exact onDriverTimes (r := { r with info := annotate V.name (parasMeta R (L.params (L.pub m))) r.info })
          (List.mem_of_getElem? hann) rfl
    · intro k o ho
      refine ⟨⟨(createInfo (annotate V.name (parasMeta R (L.params (L.pub m))) r.info) o.2.1 o.1).set "run_idx" (.int i),
        keepAt (usedAt (annotated V R (L.params (L.pub m)) sel)) (scatter r.vals o.2.2)⟩, ?_, ?_, ?_⟩
      · simp only [concatRuns, List.getElem?_map]
        have hkl : k < L.names.length := by rw [← L.outputs_length m₂]; exact (List.getElem?_eq_some_iff.mp ho).1
        rw [flatten_getElem? hblk i (k + 1) (by simp [size, hkl]), hb1]
        simp only [Option.bind_some, number, mkBlock, List.getElem?_map, List.getElem?_cons_succ, ho, Option.map_some]
      · exact output_meta hps r.info i o.2.1 o.1
      · exact onDriverTimes (r := { r with info := annotate V.name (parasMeta R (L.params (L.pub m))) r.info })
          (List.mem_of_getElem? hann) (L.sim_len _ _ _ _ g3 o (List.mem_of_getElem? ho))

end Variant.Laws

/-! ## the two classes -/

theorem UnitOk.time {R : Registry N α} (D : R.Dimensional) {q : Qty N α} (h : q.unit = R.yr ∨ q.unit = R.mon) :
    UnitOk R q.unit R.s ∧ UnitOk R q.unit R.yr := by
  have dm : ∀ n, dimOf D.dim (u1 n) = D.dim n := by
    intro n
    funext d
    simp [dimOf, u1, Pi.single_apply]
  have hy : dimOf D.dim R.yr = dimOf D.dim R.s := by rw [Registry.yr, Registry.s, dm, dm, D.dim_year]
  have hm : dimOf D.dim R.mon = dimOf D.dim R.s := by rw [Registry.mon, Registry.s, dm, dm, D.dim_month]
  rw [D.unitOk_iff, D.unitOk_iff]
  rcases h with h | h <;> rw [h]
  · exact ⟨hy, rfl⟩
  · exact ⟨hm, hm.trans hy.symm⟩

theorem TLM.setDeltaT_good {R : Registry N α} {q : Qty N α} (h : UnitOk R q.unit R.s) (m : TLM N α) :
    TLM.setDeltaT R (.qty q) m = ({ m with core := { m.core with deltaT := q, deltaTMag := q.magIn R R.s } }, .ok ()) := by
  simp only [TLM.setDeltaT, Py.onCore, Core.setDeltaT, Py.bind_apply, Py.lift_apply, checkQty_good h]
  rfl

theorem IRM.setDeltaT_good {R : Registry N α} {q : Qty N α} (h : UnitOk R q.unit R.yr) (m : IRM N α) :
    IRM.setDeltaT R (.qty q) m = ({ m with core := { m.core with deltaT := q, deltaTMag := q.magIn R R.yr } }, .ok ()) := by
  simp only [IRM.setDeltaT, Py.onCore, Core.setDeltaT, Py.bind_apply, Py.lift_apply, checkQty_good h]
  rfl

theorem core_setDrivers_dt (R : Registry N α) (d : DArg N α) (c : Core N α) :
    ((Core.setDrivers R d c).1).deltaT = c.deltaT := by
  unfold Core.setDrivers Core.setErf
  cases d with
  | bare a => by_cases h : a.ndim = 1 <;> simp [h]
  | qty a u =>
    by_cases h : a.ndim = 1
    · by_cases hu : (u = R.wm2 ∨ R.compat u R.wm2 = true) <;> simp [h, hu]
    · simp [h]

/-- public parameters are untouched by reset and run -/
theorem TLM.simulate_pub (R : Registry N α) (D : R.Dimensional) (d : DArg N α) (m : TLM N α) (h : m.Coherent R) :
    (TLM.simulate R d m).1.Coherent R ∧ (TLM.simulate R d m).1.pub = m.pub := by
  have key : Py.Pres (fun x : TLM N α => x.Coherent R ∧ x.pub = m.pub) (TLM.simulate R d) := by
    unfold TLM.simulate
    refine Py.Pres.bind ?_ fun _ => Py.Pres.bind ?_ fun _ => ?_
    · intro x hx
      refine ⟨TLM.setDrivers_pres R d x hx.1, ?_⟩
      rw [← hx.2]
      simp only [TLM.setDrivers, Py.onCore, TLM.pub]
      have : ((Core.setDrivers R d x.core).1).deltaT = x.core.deltaT := by
        exact core_setDrivers_dt R d x.core
      rw [this]
    · intro x hx
      refine ⟨TLM.reset_pres R x hx.1, ?_⟩
      rw [← hx.2]
      unfold TLM.reset
      simp only [Py.bind_apply, Py.get_apply]
      split
      · rfl
      · cases x.core.erfMag <;> rfl
    · have hstep : Py.Pres (fun x : TLM N α => x.Coherent R ∧ x.pub = m.pub) (TLM.step (N := N) (α := α)) := by
        intro x hx
        refine ⟨TLM.step_pres R x hx.1, ?_⟩
        obtain ⟨v, hv, -, -⟩ := TLM.step_frame x hx.1.lens
        rw [hv, ← hx.2]; rfl
      exact Py.Pres.get.bind fun _ => hstep.times _
  exact key m ⟨h, rfl⟩

theorem IRM.simulate_pub (R : Registry N α) (d : DArg N α) (m : IRM N α) (h : m.Coherent R) :
    (IRM.simulate R d m).1.Coherent R ∧ (IRM.simulate R d m).1.pub = m.pub := by
  have key : Py.Pres (fun x : IRM N α => x.Coherent R ∧ x.pub = m.pub) (IRM.simulate R d) := by
    unfold IRM.simulate
    refine Py.Pres.bind ?_ fun _ => Py.Pres.bind ?_ fun _ => ?_
    · intro x hx
      refine ⟨IRM.setDrivers_pres R d x hx.1, ?_⟩
      rw [← hx.2]
      simp only [IRM.setDrivers, Py.onCore, IRM.pub]
      have : ((Core.setDrivers R d x.core).1).deltaT = x.core.deltaT := by
        exact core_setDrivers_dt R d x.core
      rw [this]
    · intro x hx
      refine ⟨IRM.reset_pres R x hx.1, ?_⟩
      rw [← hx.2]
      unfold IRM.reset
      simp only [Py.bind_apply, Py.get_apply]
      split
      · rfl
      · cases x.core.erfMag <;> rfl
    · have hstep : Py.Pres (fun x : IRM N α => x.Coherent R ∧ x.pub = m.pub) (IRM.step R) := by
        intro x hx
        refine ⟨IRM.step_pres R x hx.1, ?_⟩
        obtain ⟨v, hv, -, -⟩ := IRM.step_frame R x hx.1.lens
        rw [hv, ← hx.2]; rfl
      exact Py.Pres.get.bind fun _ => hstep.times _
  exact key m ⟨h, rfl⟩

theorem TLM.simulate_variant (R : Registry N α) (d : DArg N α) : (TLM.variant R).simulate d = TLM.simulate R d := rfl
theorem IRM.simulate_variant (R : Registry N α) (d : DArg N α) : (IRM.variant R).simulate d = IRM.simulate R d := rfl

/-- history independence for objects satisfying the invariant -/
theorem TLM.simulate_hist {R : Registry N α} {m₁ m₂ : TLM N α} (c₁ : m₁.Coherent R) (c₂ : m₂.Coherent R)
    (hp : m₁.pub = m₂.pub) (d : DArg N α) :
    (TLM.simulate R d m₁).2 = (TLM.simulate R d m₂).2 ∧
    ((TLM.simulate R d m₁).2 = .ok () → (TLM.simulate R d m₁).1 = (TLM.simulate R d m₂).1) := by
  by_cases hg : ∃ vals u, GoodDrivers R d vals u
  · obtain ⟨vals, u, hg⟩ := hg
    rw [TLM.simulate_good R m₁ hg, TLM.simulate_good R m₂ hg, TLM.ready_eq c₁ c₂ hp]
    exact ⟨rfl, fun _ => rfl⟩
  · obtain ⟨e, e1, e2⟩ := TLM.simulate_bad_eq R m₁ m₂ (fun v u hh => hg ⟨v, u, hh⟩)
    rw [e1, e2]
    exact ⟨rfl, fun h => by cases h⟩

theorem IRM.simulate_hist {R : Registry N α} {m₁ m₂ : IRM N α} (c₁ : m₁.Coherent R) (c₂ : m₂.Coherent R)
    (hp : m₁.pub = m₂.pub) (d : DArg N α) :
    (IRM.simulate R d m₁).2 = (IRM.simulate R d m₂).2 ∧
    ((IRM.simulate R d m₁).2 = .ok () → (IRM.simulate R d m₁).1 = (IRM.simulate R d m₂).1) := by
  by_cases hg : ∃ vals u, GoodDrivers R d vals u
  · obtain ⟨vals, u, hg⟩ := hg
    rw [IRM.simulate_good R m₁ hg, IRM.simulate_good R m₂ hg, IRM.ready_eq c₁ c₂ hp]
    exact ⟨rfl, fun _ => rfl⟩
  · obtain ⟨e, e1, e2⟩ := IRM.simulate_bad_eq R m₁ m₂ (fun v u hh => hg ⟨v, u, hh⟩)
    rw [e1, e2]
    exact ⟨rfl, fun h => by cases h⟩

/-- the two-layer model satisfies the laws -/
def TLM.laws {R : Registry N α} (D : R.Dimensional) : (TLM.variant R).Laws R where
  K := TLM.Public N α
  Inv := TLM.Coherent R
  pub := TLM.pub
  withDt := fun k q => { k with deltaT := q }
  withDt_withDt := fun _ _ _ => rfl
  params := TLM.Public.params
  names := [("Surface Temperature|Upper", "delta_degC"), ("Surface Temperature|Lower", "delta_degC"),
    ("Heat Uptake", "W/m^2")]
  params_eq := fun _ => rfl
  params_dt := fun _ _ => rfl
  params_names := fun k => ⟨by simp [TLM.Public.params], by
    intro p hp
    simp only [TLM.Public.params, List.mem_cons, List.not_mem_nil, or_false] at hp
    rcases hp with rfl | rfl | rfl | rfl | rfl | rfl <;> (unfold NoSpace; dsimp only; decide)⟩
  names_nodup := by decide
  setDt := fun m q h hq => ⟨_, TLM.setDeltaT_good (UnitOk.time D hq).1 m, by
    have := TLM.setDeltaT_pres R (.qty q) m h
    rwa [TLM.setDeltaT_good (UnitOk.time D hq).1 m] at this, rfl⟩
  sim_congr := fun m₁ m₂ d h₁ h₂ hp => TLM.simulate_hist h₁ h₂ hp d
  sim_inv := fun m d h => TLM.simulate_pub R D d m h
  sim_len := by
    intro m m' vals u h o ho
    obtain ⟨vals', u', v, hg, rfl, hI⟩ := TLM.simulate_ok (R := R) h
    obtain ⟨rfl, rfl⟩ := GoodDrivers.of_eq hg rfl
    have l1 := hI.lA
    have l2 := hI.lB
    have l3 := hI.lC
    simp only [TLM.variant, TLM.outputs, TLM.setView, List.mem_cons, List.not_mem_nil, or_false] at ho
    rcases ho with rfl | rfl | rfl
    · simpa using l1
    · simpa using l2
    · simpa using l3
  out_names := fun _ => rfl

/-- the impulse response model satisfies the laws -/
def IRM.laws {R : Registry N α} (D : R.Dimensional) : (IRM.variant R).Laws R where
  K := IRM.Public N α
  Inv := IRM.Coherent R
  pub := IRM.pub
  withDt := fun k q => { k with deltaT := q }
  withDt_withDt := fun _ _ _ => rfl
  params := IRM.Public.params
  names := [("Surface Temperature|Box 1", "delta_degC"), ("Surface Temperature|Box 2", "delta_degC"),
    ("Surface Temperature", "delta_degC"), ("Heat Uptake", "W/m^2")]
  params_eq := fun _ => rfl
  params_dt := fun _ _ => rfl
  params_names := fun k => ⟨by simp [IRM.Public.params], by
    intro p hp
    simp only [IRM.Public.params, List.mem_cons, List.not_mem_nil, or_false] at hp
    rcases hp with rfl | rfl | rfl | rfl | rfl <;> (unfold NoSpace; dsimp only; decide)⟩
  names_nodup := by decide
  setDt := fun m q h hq => ⟨_, IRM.setDeltaT_good (UnitOk.time D hq).2 m, by
    have := IRM.setDeltaT_pres R (.qty q) m h
    rwa [IRM.setDeltaT_good (UnitOk.time D hq).2 m] at this, rfl⟩
  sim_congr := fun m₁ m₂ d h₁ h₂ hp => IRM.simulate_hist h₁ h₂ hp d
  sim_inv := fun m d h => IRM.simulate_pub R d m h
  sim_len := by
    intro m m' vals u h o ho
    obtain ⟨vals', u', v, hg, rfl, hI⟩ := IRM.simulate_ok (R := R) h
    obtain ⟨rfl, rfl⟩ := GoodDrivers.of_eq hg rfl
    have l1 := hI.lA
    have l2 := hI.lB
    have l3 := hI.lC
    simp only [IRM.variant, IRM.outputs, IRM.setView, List.mem_cons, List.not_mem_nil, or_false] at ho
    rcases ho with rfl | rfl | rfl | rfl
    · simpa using l1
    · simpa using l2
    · simp [List.length_zipWith, l1, l2]
    · simpa using l3
  out_names := fun _ => rfl

end TwoLayer
