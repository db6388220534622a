import Verif.Proofs.Returned

/-! # `run_scenarios`: independence, failure, feeding results back -/

set_option linter.unusedSimpArgs false
set_option linter.unusedSectionVars false

namespace TwoLayer
variable {N α σ : Type} [Fintype N] [DecidableEq N] [Arith α] [DecidableEq α]

/-- metadata meeting the same description agree -/
theorem OutputMeta.congr {R : Registry N α} {model : String} {params : List (String × Qty N α)} {drv : Meta α} {i j : Nat}
    {v u : Option (MVal α)} {m m' : Meta α} (h : OutputMeta R model params drv i v u m)
    (h' : OutputMeta R model params drv j v u m') : ∀ c, c ≠ "run_idx" → m.get c = m'.get c := by
  intro c hc
  by_cases h1 : c = "climate_model"
  · subst h1; rw [h.climate_model, h'.climate_model]
  by_cases h2 : c = "variable"
  · subst h2; rw [h.variable_ok, h'.variable_ok]
  by_cases h3 : c = "unit"
  · subst h3; rw [h.unit_ok, h'.unit_ok]
  by_cases h4 : ∃ p ∈ params, c = paramColumn R p
  · obtain ⟨p, hp, rfl⟩ := h4
    rw [h.params_ok p hp, h'.params_ok p hp]
  · have : ∀ p ∈ params, c ≠ paramColumn R p := fun p hp e => h4 ⟨p, hp, e⟩
    rw [h.other c hc h1 h2 h3 this, h'.other c hc h1 h2 h3 this]

/-- series described by the same values have the same values -/
theorem OnDriverTimes.transfer {times : List Int} {drv : List α} {t1 t2 : List Int} {xs r1 r2 : List α}
    (h1 : OnDriverTimes times drv t1 xs r1) (h2 : OnDriverTimes times drv t2 xs r2) {t : Int} {x : α}
    (hx : x ≠ Arith.nan) (h : HasValue t1 r1 t x) : HasValue t2 r2 t x := by
  obtain ⟨i, d, ht, hd, ⟨hn, hxs⟩ | ⟨-, e⟩⟩ := h1.onlyHere t x h
  · obtain ⟨x', hx', hv⟩ := h2.here i t d ht hd hn
    rw [hxs] at hx'; cases hx'
    exact hv
  · exact absurd e hx

namespace Variant.Laws
variable {V : Variant N α σ} {R : Registry N α} (L : V.Laws R)
include L

theorem params_of_dt {k k' : L.K} (h : ∀ q, L.withDt k q = L.withDt k' q) (q : Qty N α) : L.params k = L.params k' := by
  rw [← L.params_dt k q, ← L.params_dt k' q, h q]

/-- the outcome depends only on the public parameters other than `delta_t` -/
theorem runScenarios_congr {m m' : σ} (h : L.Inv m) (h' : L.Inv m')
    (hp : ∀ q, L.withDt (L.pub m) q = L.withDt (L.pub m') q) (dv : String) (scen : ScmRun α) :
    (runScenarios V R dv scen m).2 = (runScenarios V R dv scen m').2 := by
  have hpar : L.params (L.pub m) = L.params (L.pub m') := L.params_of_dt hp ⟨Arith.nan, 0⟩
  rcases L.runScenarios_spec h dv scen with ⟨a1, a2⟩ | ⟨a1, e, a2, a3⟩ | ⟨a1, ts, m₁, a2, a3, a4, a5, a6⟩
  · rcases L.runScenarios_spec h' dv scen with ⟨_, b2⟩ | ⟨b1, _⟩ | ⟨b1, _⟩
    · rw [a2, b2]
    · exact absurd a1 b1
    · exact absurd a1 b1
  · rcases L.runScenarios_spec h' dv scen with ⟨b1, _⟩ | ⟨_, e', b2, b3⟩ | ⟨_, ts, _, b2, _⟩
    · exact absurd b1 a1
    · rw [a2] at b2; cases b2; rw [a3, b3]
    · rw [a2] at b2; cases b2
  · rcases L.runScenarios_spec h' dv scen with ⟨b1, _⟩ | ⟨_, e', b2, b3⟩ | ⟨_, ts', m₁', b2, b3, b4, b5, b6⟩
    · exact absurd b1 a1
    · rw [a2] at b2; cases b2
    · rw [a2] at b2; cases b2
      rw [← hpar] at b6
      have hk : L.pub m₁ = L.pub m₁' := by rw [a5, b5, hp]
      have hres : ∀ j r, rowRes V R m₁ j r = rowRes V R m₁' j r := fun j r => (L.runRow_congr a4 b4 hk j r).1
      rcases a6 with ⟨a6, a7⟩ | ⟨a6, _, _, a8⟩
      · rcases b6 with ⟨b6, b7⟩ | ⟨b6, _⟩
        · rw [a7, b7]
        · exact absurd b6 a6
      · rcases b6 with ⟨b6, _⟩ | ⟨_, _, _, b8⟩
        · exact absurd a6 b6
        · -- same rows, same results: redo the loop on both objects
          have hrows : ∀ (rows : List (Row α)) (i : Nat) (x y : σ), L.Inv x → L.Inv y → L.pub x = L.pub y →
              (runRows V R i rows x).2 = (runRows V R i rows y).2 := by
            intro rows
            induction rows with
            | nil => intro i x y _ _ _; rfl
            | cons r rest ih =>
              intro i x y hx hy hxy
              obtain ⟨c1, c2, c3⟩ := L.runRow_congr hx hy hxy i r
              obtain ⟨-, d2, d3⟩ := L.runRow_congr hy hx hxy.symm i r
              unfold rowRes at c1
              simp only [runRows, Py.bind_apply]
              rcases hr : runRow V R i r x with ⟨x1, e | o⟩ <;> rcases hr' : runRow V R i r y with ⟨y1, e' | o'⟩ <;>
                rw [hr, hr'] at c1 <;> cases c1
              · rfl
              · rw [hr] at c2 c3
                rw [hr'] at d2 d3
                have := ih (i + 1) x1 y1 c2 d2 (by rw [c3, d3, hxy])
                rcases h1 : runRows V R (i + 1) rest x1 with ⟨x2, e1 | o1⟩ <;>
                  rcases h2 : runRows V R (i + 1) rest y1 with ⟨y2, e2 | o2⟩ <;>
                  rw [h1, h2] at this <;> cases this
                · simp only [h1, h2]
                · simp only [h1, h2]; rfl
          rcases a8 with ⟨bl, e1, e2, e3⟩ | ⟨j, r, e, e1, e2, e3⟩
          · rcases b8 with ⟨bl', f1, f2, f3⟩ | ⟨j', r', e', f1, f2, f3⟩
            · rw [e3, f3]
              have : bl = bl' := by
                apply List.ext_getElem?
                intro j
                by_cases hj : j < (scen.rows.filter (selects dv)).length
                · have hget : ∃ r, (annotated V R (L.params (L.pub m)) (scen.rows.filter (selects dv)))[j]? = some r :=
                    ⟨_, List.getElem?_eq_getElem (by simpa using hj)⟩
                  obtain ⟨r, hr⟩ := hget
                  obtain ⟨b1, g1, g2⟩ := e2 j r hr
                  obtain ⟨b2, g3, g4⟩ := f2 j r hr
                  rw [hres] at g2
                  rw [g2] at g4; cases g4
                  rw [g1, g3]
                · rw [List.getElem?_eq_none (by omega), List.getElem?_eq_none (by omega)]
              rw [this]
            · obtain ⟨b, _, g⟩ := e2 j' r' f1
              rw [hres, f2] at g; cases g
          · rcases b8 with ⟨bl', f1, f2, f3⟩ | ⟨j', r', e', f1, f2, f3⟩
            · obtain ⟨b, _, g⟩ := f2 j r e1
              rw [← hres, e2] at g; cases g
            · have hr := hrows (annotated V R (L.params (L.pub m)) (scen.rows.filter (selects dv))) 0 m₁ m₁' a4 b4 hk
              have hrun : ∀ x x₁ : σ, V.setDeltaT (.qty (ts.qty R)) x = (x₁, .ok ()) → V.saveParas x = L.params (L.pub m) →
                  (runScenarios V R dv scen x).2 =
                  match (runRows V R 0 (annotated V R (L.params (L.pub m)) (scen.rows.filter (selects dv))) x₁).2 with
                  | .ok out => .ok (concatRuns scen.times (annotated V R (L.params (L.pub m)) (scen.rows.filter (selects dv))) out)
                  | .error e => .error e := by
                intro x x₁ hx hps
                have hne : (scen.rows.filter (selects dv)).isEmpty = false := by
                  cases hh : scen.rows.filter (selects dv) <;> simp_all
                have : runScenarios V R dv scen x = ((do
                    let out ← runRows V R 0 (annotated V R (L.params (L.pub m)) (scen.rows.filter (selects dv)))
                    pure (concatRuns scen.times (annotated V R (L.params (L.pub m)) (scen.rows.filter (selects dv))) out) :
                      Py σ (ScmRun α))) x₁ := by
                  simp only [runScenarios, Py.bind_apply, Py.get_apply, hne, a2, hps]
                  refine (congrFun (if_neg (by simp)) x).trans ?_
                  simp only [Py.bind_apply, Py.lift_apply, hx]
                  exact congrFun (if_neg (by simpa using a6)) x₁
                rw [this]
                simp only [Py.bind_apply]
                rcases runRows V R 0 (annotated V R (L.params (L.pub m)) (scen.rows.filter (selects dv))) x₁ with ⟨_, _ | _⟩ <;> rfl
              rw [hrun m m₁ a3 (L.params_eq m), hrun m' m₁' b3 ((L.params_eq m').trans hpar.symm), hr]

/-- whatever happens, the public parameters other than `delta_t` stay -/
theorem runScenarios_pub {m : σ} (h : L.Inv m) (dv : String) (scen : ScmRun α) :
    L.Inv (runScenarios V R dv scen m).1 ∧
    (L.pub (runScenarios V R dv scen m).1 = L.pub m ∨
      ∃ ts, selectTimestep scen.times = .ok ts ∧
        L.pub (runScenarios V R dv scen m).1 = L.withDt (L.pub m) (ts.qty R)) := by
  rcases L.runScenarios_spec h dv scen with ⟨_, a2⟩ | ⟨_, e, _, a3⟩ | ⟨_, ts, m₁, a2, a3, a4, a5, ⟨_, a7⟩ | ⟨_, a7, a8, _⟩⟩
  · rw [a2]; exact ⟨h, Or.inl rfl⟩
  · rw [a3]; exact ⟨h, Or.inl rfl⟩
  · rw [a7]; exact ⟨a4, Or.inr ⟨ts, a2, a5⟩⟩
  · exact ⟨a7, Or.inr ⟨ts, a2, by rw [a8, a5]⟩⟩

/-- a later call behaves as if the earlier one had not been made -/
theorem runScenarios_again {m : σ} (h : L.Inv m) (dv : String) (scen : ScmRun α) (dv' : String) (scen' : ScmRun α) :
    (runScenarios V R dv' scen' (runScenarios V R dv scen m).1).2 = (runScenarios V R dv' scen' m).2 := by
  obtain ⟨h1, h2⟩ := L.runScenarios_pub h dv scen
  apply L.runScenarios_congr h1 h
  intro q
  rcases h2 with h2 | ⟨ts, -, h2⟩
  · rw [h2]
  · rw [h2, L.withDt_withDt]

omit L in
/-- the position of a scenario only numbers it -/
theorem rowRes_idx (V : Variant N α σ) (R : Registry N α) (m : σ) (i j : Nat) (row : Row α) (e : Err) :
    rowRes V R m i row = .error e ↔ rowRes V R m j row = .error e := by
  unfold rowRes
  rw [runRow_eq, runRow_eq]
  cases hg : row.info.get "unit" with
  | none => exact Iff.rfl
  | some v =>
    cases v with
    | num x => exact Iff.rfl
    | int n => exact Iff.rfl
    | str us =>
      simp only
      cases hps : R.parse us with
      | none => exact Iff.rfl
      | some u =>
        simp only
        rcases hs : V.simulate (.qty ⟨1, present row.vals⟩ u) m with ⟨m2, e | x⟩
        · exact Iff.rfl
        · simp only
          split
          · exact Iff.rfl
          · split
            · exact Iff.rfl
            · simp

/-- Running one selected series alone: outcome of that scenario. -/
theorem alone {m : σ} (h : L.Inv m) {dv : String} {times : List Int} {r : Row α} (hr : selects dv r = true)
    {ts : Timestep} (hts : selectTimestep times = .ok ts) {m₁ : σ} (hm₁ : V.setDeltaT (.qty (ts.qty R)) m = (m₁, .ok ())) :
    (∀ e, rowRes V R m₁ 0 { r with info := annotate V.name (parasMeta R (L.params (L.pub m))) r.info } = .error e →
      (runScenarios V R dv ⟨times, [r]⟩ m).2 = .error e) ∧
    (∀ b, rowRes V R m₁ 0 { r with info := annotate V.name (parasMeta R (L.params (L.pub m))) r.info } = .ok b →
      ∃ out, (runScenarios V R dv ⟨times, [r]⟩ m).2 = .ok out) := by
  have hf : (ScmRun.mk times [r]).rows.filter (selects dv) = [r] := by simp [hr]
  rcases L.runScenarios_spec h dv ⟨times, [r]⟩ with ⟨a1, a2⟩ | ⟨a1, e, a2, a3⟩ | ⟨a1, ts', m₁', a2, a3, a4, a5, a6⟩
  · rw [hf] at a1; cases a1
  · simp only at a2; rw [hts] at a2; cases a2
  · simp only at a2; rw [hts] at a2; cases a2
    rw [hm₁] at a3
    cases a3
    rw [hf] at a6
    rcases a6 with ⟨a6, a7⟩ | ⟨_, _, _, a8⟩
    · simp [annotated] at a6
    · rcases a8 with ⟨bl, e1, e2, e3⟩ | ⟨j, r', e, e1, e2, e3⟩
      · obtain ⟨b, g1, g2⟩ := e2 0 _ rfl
        constructor
        · intro e he; rw [he] at g2; cases g2
        · intro b' _; exact ⟨_, e3⟩
      · have hj : j = 0 := by
          have := (List.getElem?_eq_some_iff.mp e1).1
          simp at this; omega
        subst hj
        have hr' : { r with info := annotate V.name (parasMeta R (L.params (L.pub m))) r.info } = r' := by simpa using e1
        subst hr'
        constructor
        · intro e' he; rw [he] at e2; cases e2; exact e3
        · intro b' hb; rw [hb] at e2; cases e2

/-- success together implies success alone -/
theorem alone_of_joint {m m' : σ} (h : L.Inv m) {dv : String} {scen out : ScmRun α}
    (hrun : runScenarios V R dv scen m = (m', .ok out)) {r : Row α} (hr : r ∈ scen.rows.filter (selects dv)) :
    ∃ out', (runScenarios V R dv ⟨scen.times, [r]⟩ m).2 = .ok out' := by
  rcases L.runScenarios_spec h dv scen with ⟨_, h1⟩ | ⟨_, e, _, h1⟩ | ⟨_, ts, m₁, hts, hm₁, hi, hk, hcase⟩
  · rw [hrun] at h1; cases h1
  · rw [hrun] at h1; cases h1
  rcases hcase with ⟨_, h1⟩ | ⟨hn, hi', hk', hcase⟩
  · rw [hrun] at h1; cases h1
  rw [hrun] at hcase
  rcases hcase with ⟨blocks, hl, hb, hout⟩ | ⟨_, _, _, _, _, h1⟩
  swap
  · cases h1
  obtain ⟨j, hj⟩ := List.mem_iff_getElem?.mp hr
  obtain ⟨b, -, hb2⟩ := hb j { r with info := annotate V.name (parasMeta R (L.params (L.pub m))) r.info } (by
    simp [annotated, List.getElem?_map, hj])
  have hsel : selects dv r = true := (List.mem_filter.mp hr).2
  have hA := L.alone h hsel hts hm₁
  cases hres : rowRes V R m₁ 0 { r with info := annotate V.name (parasMeta R (L.params (L.pub m))) r.info } with
  | error e => rw [rowRes_idx V R m₁ 0 j] at hres; rw [hres] at hb2; cases hb2
  | ok b' => exact hA.2 b' hres

/-- a failure together is a failure of one of them alone, or a collision of metadata -/
theorem joint_error {m : σ} (h : L.Inv m) {dv : String} {scen : ScmRun α} {e : Err}
    (hrun : (runScenarios V R dv scen m).2 = .error e) (hsel : scen.rows.filter (selects dv) ≠ []) {ts : Timestep}
    (hts : selectTimestep scen.times = .ok ts) :
    (e = .nonUniqueMeta ∧
      ¬ ((annotated V R (L.params (L.pub m)) (scen.rows.filter (selects dv))).map Row.info).Nodup) ∨
    ∃ r ∈ scen.rows.filter (selects dv), (runScenarios V R dv ⟨scen.times, [r]⟩ m).2 = .error e := by
  rcases L.runScenarios_spec h dv scen with ⟨h0, h1⟩ | ⟨_, e', h0, h1⟩ | ⟨_, ts', m₁, hts', hm₁, hi, hk, hcase⟩
  · exact absurd h0 hsel
  · rw [hts] at h0; cases h0
  rw [hts] at hts'; cases hts'
  rcases hcase with ⟨hn, h1⟩ | ⟨hn, hi', hk', hcase⟩
  · rw [h1] at hrun; cases hrun; exact Or.inl ⟨rfl, hn⟩
  · rw [hrun] at hcase
    rcases hcase with ⟨blocks, hl, hb, hout⟩ | ⟨j, r', e', e1, e2, h1⟩
    · cases hout
    · cases h1
      simp only [annotated, List.getElem?_map, Option.map_eq_some_iff] at e1
      obtain ⟨r, hr, rfl⟩ := e1
      have hmem := List.mem_of_getElem? hr
      refine Or.inr ⟨r, hmem, ?_⟩
      exact (L.alone h (List.mem_filter.mp hmem).2 hts hm₁).1 e ((rowRes_idx V R m₁ 0 j _ e).mpr e2)

/-- the results for one series are the same in any company, on any object with the same parameters -/
theorem independent {m m' n n' : σ} (h : L.Inv m) (h' : L.Inv n)
    (hp : ∀ q, L.withDt (L.pub m) q = L.withDt (L.pub n) q) {dv : String} {scen scen' out out' : ScmRun α}
    (ht : scen.times = scen'.times)
    (hrun : runScenarios V R dv scen m = (m', .ok out)) (hrun' : runScenarios V R dv scen' n = (n', .ok out'))
    {i i' : Nat} {r : Row α} (hi : (scen.rows.filter (selects dv))[i]? = some r)
    (hi' : (scen'.rows.filter (selects dv))[i']? = some r) :
    ∀ k < L.size, ∃ row row', out.rows[L.size * i + k]? = some row ∧ out'.rows[L.size * i' + k]? = some row' ∧
      (∀ c, c ≠ "run_idx" → row.info.get c = row'.info.get c) ∧
      (∀ t x, x ≠ Arith.nan → (HasValue out.times row.vals t x ↔ HasValue out'.times row'.vals t x)) := by
  obtain ⟨ts, m₁, a1, a2, a3, a4, -, -, -, a5⟩ := L.returned h hrun
  obtain ⟨ts', n₁, b1, b2, b3, b4, -, -, -, b5⟩ := L.returned h' hrun'
  rw [ht, b1] at a1
  cases a1
  obtain ⟨us, u, m₂, c1, c2, c3, -, c4, c5⟩ := a5 i r hi
  obtain ⟨us', u', n₂, d1, d2, d3, -, d4, d5⟩ := b5 i' r hi'
  rw [c1] at d1; cases d1
  rw [c2] at d2; cases d2
  have hpar : L.params (L.pub m) = L.params (L.pub n) := L.params_of_dt hp ⟨Arith.nan, 0⟩
  obtain ⟨-, s2⟩ := L.sim_congr m₁ n₁ (.qty ⟨1, present r.vals⟩ u) a3 b3 (by rw [a4, b4, hp])
  rw [c3, d3] at s2
  have : m₂ = n₂ := s2 rfl
  subst this
  have key : ∀ {v un : Option (MVal α)} {xs : List α} {x y : Nat},
      ReturnedRow R V.name (L.params (L.pub m)) scen out i r x v un xs →
      ReturnedRow R V.name (L.params (L.pub n)) scen' out' i' r y v un xs →
      ∃ row row', out.rows[x]? = some row ∧ out'.rows[y]? = some row' ∧
        (∀ c, c ≠ "run_idx" → row.info.get c = row'.info.get c) ∧
        (∀ t x, x ≠ Arith.nan → (HasValue out.times row.vals t x ↔ HasValue out'.times row'.vals t x)) := by
    rintro v un xs x y ⟨row, g1, g2, g3⟩ ⟨row', k1, k2, k3⟩
    rw [← ht] at k3
    rw [← hpar] at k2
    exact ⟨row, row', g1, k1, g2.congr k2, fun t x hx => ⟨g3.transfer k3 hx, k3.transfer g3 hx⟩⟩
  intro k hk
  cases k with
  | zero => exact key c4 d4
  | succ k =>
    have hlt : k < (V.outputs m₂).length := by rw [L.outputs_length]; simp [size] at hk; omega
    exact key (c5 k _ (List.getElem?_eq_getElem hlt)) (d5 k _ (List.getElem?_eq_getElem hlt))

/-- returned series are pairwise distinguishable by their metadata -/
theorem distinct {m m' : σ} (h : L.Inv m) {dv : String} {scen out : ScmRun α}
    (hrun : runScenarios V R dv scen m = (m', .ok out)) {a b : Nat} (hab : a ≠ b) {ra rb : Row α}
    (ha : out.rows[a]? = some ra) (hb : out.rows[b]? = some rb) : ∃ c, ra.info.get c ≠ rb.info.get c := by
  obtain ⟨ts, m₁, a1, a2, a3, a4, -, -, a6, a5⟩ := L.returned h hrun
  have hs : 0 < L.size := by simp [size]
  have hlen : ∀ x : Nat, x < out.rows.length → x / L.size < (scen.rows.filter (selects dv)).length := by
    intro x hx
    rw [a6] at hx
    exact Nat.div_lt_of_lt_mul hx
  have hla : a < out.rows.length := (List.getElem?_eq_some_iff.mp ha).1
  have hlb : b < out.rows.length := (List.getElem?_eq_some_iff.mp hb).1
  obtain ⟨us, u, m₂, c1, c2, c3, c6, c4, c5⟩ := a5 (a / L.size) _ (List.getElem?_eq_getElem (hlen a hla))
  -- description of a row by its number
  have desc : ∀ (x : Nat) (rx : Row α), out.rows[x]? = some rx → ∀ (i : Nat), i = x / L.size → ∀ (r : Row α) (m₂ : σ),
      ReturnedRow R V.name (L.params (L.pub m)) scen out i r (L.size * i) (r.info.get "variable") (r.info.get "unit")
            (present r.vals) →
      (∀ (k : Nat) (o : String × String × List α), (V.outputs m₂)[k]? = some o →
            ReturnedRow R V.name (L.params (L.pub m)) scen out i r (L.size * i + (k + 1)) (some (.str o.1))
              (some (.str o.2.1)) o.2.2) →
      rx.info.get "run_idx" = some (.int i) ∧
      ((x % L.size = 0 ∧ rx.info.get "variable" = r.info.get "variable" ∧ rx.info.get "unit" = r.info.get "unit") ∨
       (∃ k o, x % L.size = k + 1 ∧ (V.outputs m₂)[k]? = some o ∧ rx.info.get "variable" = some (.str o.1) ∧
         rx.info.get "unit" = some (.str o.2.1))) := by
    intro x rx hx i hi r m₂ h1 h2
    subst hi
    have hd := Nat.div_add_mod x L.size
    cases hk : x % L.size with
    | zero =>
      rw [hk, Nat.add_zero] at hd
      obtain ⟨row, g1, g2, -⟩ := h1
      rw [hd, hx] at g1; cases g1
      exact ⟨g2.run_idx, Or.inl ⟨rfl, g2.variable_ok, g2.unit_ok⟩⟩
    | succ k =>
      rw [hk] at hd
      have hlt : k < (V.outputs m₂).length := by
        rw [L.outputs_length]
        have := Nat.mod_lt x hs
        simp only [size] at this hk; omega
      obtain ⟨row, g1, g2, -⟩ := h2 k _ (List.getElem?_eq_getElem hlt)
      rw [hd, hx] at g1; cases g1
      exact ⟨g2.run_idx, Or.inr ⟨k, _, rfl, List.getElem?_eq_getElem hlt, g2.variable_ok, g2.unit_ok⟩⟩
  obtain ⟨da1, da2⟩ := desc a ra ha _ rfl _ m₂ c4 c5
  by_cases hdiv : b / L.size = a / L.size
  · obtain ⟨db1, db2⟩ := desc b rb hb _ hdiv.symm _ m₂ c4 c5
    have hmod : a % L.size ≠ b % L.size := by
      intro he
      apply hab
      rw [← Nat.div_add_mod a L.size, ← Nat.div_add_mod b L.size, he, hdiv]
    by_contra hcon
    push Not at hcon
    have hv := hcon "variable"
    have hu := hcon "unit"
    rcases da2 with ⟨e0, e1, e2⟩ | ⟨k, o, e0, e1, e2, e3⟩ <;> rcases db2 with ⟨f0, f1, f2⟩ | ⟨k', o', f0, f1, f2, f3⟩
    · omega
    · rw [e1, f2] at hv
      rw [e2, f3] at hu
      exact c6 o' (List.mem_of_getElem? f1) ⟨hv, hu⟩
    · rw [e2, f1] at hv
      rw [e3, f2] at hu
      exact c6 o (List.mem_of_getElem? e1) ⟨hv.symm, hu.symm⟩
    · rw [e2, f2] at hv
      simp only [Option.some.injEq, MVal.str.injEq] at hv
      have hn := L.names_nodup
      rw [← L.out_names m₂, List.map_map] at hn
      have hk : k = k' := by
        obtain ⟨hkl, hko⟩ := List.getElem?_eq_some_iff.mp e1
        obtain ⟨hkl', hko'⟩ := List.getElem?_eq_some_iff.mp f1
        have := (List.Nodup.getElem_inj_iff hn (i := k) (j := k') (hi := by simpa using hkl) (hj := by simpa using hkl')).mp
          (by simp [hko, hko', hv])
        exact this
      omega
  · obtain ⟨us', u', m₂', c1', c2', c3', c6', c4', c5'⟩ := a5 (b / L.size) _ (List.getElem?_eq_getElem (hlen b hlb))
    obtain ⟨db1, -⟩ := desc b rb hb _ rfl _ m₂' c4' c5'
    refine ⟨"run_idx", ?_⟩
    rw [da1, db1]
    simp only [ne_eq, Option.some.injEq, MVal.int.injEq]
    exact fun e => hdiv e.symm

end Variant.Laws
end TwoLayer
