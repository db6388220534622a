import Verif.Model.Shared
import Verif.Proofs.Value
import Verif.Props.Ledger
import Verif.Props.Missing

/-! # Programs that share Quantities and convert them in place -/

set_option linter.unusedSimpArgs false
set_option linter.unusedSectionVars false

namespace TwoLayer

/-! ## Converting in place does not change what a Quantity is worth -/

section value
variable {N : Type} [Fintype N] [DecidableEq N] {R : Registry N XR}

/-- `q'` is what `q.ito(u)` leaves, for some `u` -/
def Same (R : Registry N XR) (q q' : Qty N XR) : Prop := ∃ u, q.toUnit R u = .ok q'

theorem Same.refl (q : Qty N XR) : Same R q q := ⟨q.unit, by simp [Qty.toUnit, Qty.magIn]⟩

theorem Same.unit (L : R.Lawful) {q q' : Qty N XR} (h : Same R q q') : L.dm q.unit = L.dm q'.unit := by
  obtain ⟨u, h⟩ := h
  unfold Qty.toUnit at h
  split at h
  · next hu => cases h; exact (L.unitOk_iff _ _).mp hu
  · cases h

theorem Same.magIn (L : R.Lawful) {q q' : Qty N XR} (h : Same R q q') {v : Units N} (hv : UnitOk R q.unit v) :
    q'.magIn R v = q.magIn R v := by
  obtain ⟨u, h⟩ := h
  unfold Qty.toUnit at h
  split at h
  · next hu =>
    have hu' := (L.unitOk_iff _ _).mp hu
    have hv' := (L.unitOk_iff _ _).mp hv
    obtain ⟨x, a⟩ := q
    cases h
    cases x with
    | fin x =>
      have hq := L.quant_self ⟨.fin x, a⟩ x rfl
      rw [hq] at hu' hv' ⊢
      simp only [Registry.Lawful.quant_unit] at hu' hv'
      rw [L.magIn_mk _ _ _ hu', L.magIn_mk _ _ _ hv']
      exact L.magIn_mk u v _ (hu'.symm.trans hv')
    | nan =>
      have nan : ∀ {s t : Units N}, L.dm s = L.dm t → (Qty.mk XR.nan s).magIn R t = XR.nan := by
        intro s t hst
        unfold Qty.magIn
        split
        · rfl
        · exact L.conv_nan _ _ ((L.compat _ _).mpr hst)
      simp only at hu' hv'
      rw [nan hu', nan (hu'.symm.trans hv'), nan hv']
  · cases h

theorem Same.unitOk (L : R.Lawful) {q q' : Qty N XR} (h : Same R q q') {v : Units N} :
    UnitOk R q'.unit v ↔ UnitOk R q.unit v := by
  rw [L.unitOk_iff, L.unitOk_iff, h.unit L]

theorem Same.toUnit (L : R.Lawful) {q q' : Qty N XR} (h : Same R q q') (v : Units N) : q'.toUnit R v = q.toUnit R v := by
  have hiff := h.unitOk L (v := v)
  by_cases hv : UnitOk R q.unit v
  · rw [toUnit_ok hv, toUnit_ok (hiff.mpr hv), h.magIn L hv]
  · have hv' : ¬ UnitOk R q'.unit v := fun h => hv (hiff.mp h)
    unfold UnitOk at hv hv'
    unfold Qty.toUnit
    rw [if_neg hv, if_neg hv']

theorem Same.trans (L : R.Lawful) {q q' q'' : Qty N XR} (h : Same R q q') (h' : Same R q' q'') : Same R q q'' := by
  obtain ⟨u, hu⟩ := h'
  exact ⟨u, by rw [← h.toUnit L]; exact hu⟩

/-- the heat capacity of a depth of water -/
theorem Same.heat (L : R.Lawful) {q q' : Qty N XR} (h : Same R q q') (hq : UnitOk R q.unit R.m) :
    (TLM.heatCapacityOf R q').magIn R R.jm2c = (TLM.heatCapacityOf R q).magIn R R.jm2c := by
  have hq' := (h.unitOk L).mpr hq
  have k1 := (L.unitOk_iff _ _).mp (L.toDimensional.heat_ok hq)
  have k2 := (L.unitOk_iff _ _).mp (L.toDimensional.heat_ok hq')
  have hm := h.magIn L hq
  obtain ⟨x, a⟩ := q
  obtain ⟨y, b⟩ := q'
  have d1 := (L.unitOk_iff _ _).mp hq
  have d2 := (L.unitOk_iff _ _).mp hq'
  have form : ∀ (z : ℝ) (c : Units N), TLM.heatCapacityOf R ⟨.fin z, c⟩ =
      L.quant (TLM.heatCapacityOf R ⟨.fin z, c⟩).unit (z * 1000 * 4181 * L.sc (TLM.heatCapacityOf R ⟨.fin z, c⟩).unit) := by
    intro z c
    refine L.quant_self _ _ ?_
    simp [TLM.heatCapacityOf, Qty.mul, Registry.densityWater, Registry.heatCapacityWater]
  have nan : ∀ {s t : Units N}, L.dm s = L.dm t → (Qty.mk XR.nan s).magIn R t = XR.nan := by
    intro s t hst
    unfold Qty.magIn
    split
    · rfl
    · exact L.conv_nan _ _ ((L.compat _ _).mpr hst)
  have fin : ∀ {s t : Units N} (z : ℝ), L.dm s = L.dm t → (Qty.mk (XR.fin z) s).magIn R t = XR.fin (z * L.sc s / L.sc t) := by
    intro s t z hst
    rw [L.quant_self ⟨.fin z, s⟩ z rfl]
    exact L.magIn_mk _ _ _ hst
  have heatNan : ∀ c : Units N, TLM.heatCapacityOf R ⟨XR.nan, c⟩ = ⟨XR.nan, (TLM.heatCapacityOf R ⟨XR.nan, c⟩).unit⟩ := by
    intro c; rfl
  cases x with
  | nan =>
    cases y with
    | nan => rw [heatNan a, heatNan b, nan k1, nan k2]
    | fin y => rw [nan d1, fin _ d2] at hm; cases hm
  | fin x =>
    cases y with
    | nan => rw [fin _ d1, nan d2] at hm; cases hm
    | fin y =>
      rw [fin _ d1, fin _ d2] at hm
      simp only [XR.fin_inj] at hm
      rw [form x a, form y b, L.magIn_mk _ _ _ k1, L.magIn_mk _ _ _ k2]
      congr 1
      simp only [TLM.heatCapacityOf, Qty.mul, Registry.densityWater, Registry.heatCapacityWater, L.sc_add]
      have := L.sc_ne R.m
      have e : y * L.sc b = x * L.sc a := by field_simp at hm; exact hm
      linear_combination (1000 * 4181 * L.sc (u1 R.kilogram - (3 : ℚ) • u1 R.meter) *
        L.sc (u1 R.joule - u1 R.ddegC - u1 R.kilogram) / L.sc R.jm2c) * e
end value

/-! ## Heap invariant, for any class -/

section heap
variable {N K σ : Type} [Fintype N] [DecidableEq N] [Fintype K] [DecidableEq K] {R : Registry N XR}

/-- what the invariant needs to know about a class -/
structure Sharing.Laws (R : Registry N XR) (C : Sharing N XR K σ) (P : σ → Prop) : Prop where
  self : ∀ m, C.withParams m (C.param m) = m
  twice : ∀ m p q, C.withParams (C.withParams m p) q = C.withParams m q
  get : ∀ m p, C.param (C.withParams m p) = p
  init : ∀ p m, C.init p = .ok m → P m ∧ C.param m = p
  assign : ∀ m, P m → ∀ k q, P (C.assign k q m).1 ∧
    ((C.assign k q m).2 = .ok () → C.param (C.assign k q m).1 = Function.update (C.param m) k q) ∧
    (∀ e, (C.assign k q m).2 = .error e → C.param (C.assign k q m).1 = C.param m)
  method : ∀ m, P m → ∀ x, P (C.method x m).1 ∧ C.param (C.method x m).1 = C.param m
  scen : ∀ m, P m → ∀ dv s, P (C.runScenarios dv s m).1 ∧
    (setsStep dv s = false → C.param (C.runScenarios dv s m).1 = C.param m) ∧
    ∀ k ≠ C.dt, C.param (C.runScenarios dv s m).1 k = C.param m k
  relabel : ∀ m, P m → ∀ p, (∀ k, Same R (C.param m k) (p k)) → P (C.withParams m p)

/-- every object refers to existing cells and satisfies `P` -/
def Sharing.Inv (C : Sharing N XR K σ) (P : σ → Prop) (heap : List (Qty N XR)) (objs : List (Obj K σ)) : Prop :=
  ∀ o ∈ objs, (∀ k, o.refs k < heap.length) ∧ P (C.read heap o)

variable {C : Sharing N XR K σ} {P : σ → Prop}

/-- cells of an object -/
theorem Sharing.Laws.read_param (LC : C.Laws R P) (heap : List (Qty N XR)) (o : Obj K σ) (h : ∀ k, o.refs k < heap.length)
    (k : K) : heap[o.refs k]? = some (C.param (C.read heap o) k) := by
  rw [Sharing.read, LC.get, List.getElem?_eq_getElem (h k)]; rfl

/-- an object whose parameter fields agree with its cells reads as it is -/
theorem Sharing.Laws.read_eq (LC : C.Laws R P) {heap : List (Qty N XR)} {o : Obj K σ}
    (h : ∀ k, heap[o.refs k]? = some (C.param o.state k)) : C.read heap o = o.state := by
  unfold Sharing.read
  have : (fun k => (heap[o.refs k]?).getD (C.param o.state k)) = C.param o.state := by
    funext k; rw [h k]; rfl
  rw [this, LC.self]

/-- an object on a heap in which its cells hold the same -/
theorem Sharing.read_congr {heap heap' : List (Qty N XR)} {o : Obj K σ} (h : ∀ k, heap'[o.refs k]? = heap[o.refs k]?) :
    C.read heap' o = C.read heap o := by
  unfold Sharing.read
  simp only [h]

theorem Sharing.Inv.append {heap : List (Qty N XR)} {objs : List (Obj K σ)} (h : C.Inv P heap objs) (l : List (Qty N XR)) :
    C.Inv P (heap ++ l) objs := by
  intro o ho
  obtain ⟨h1, h2⟩ := h o ho
  refine ⟨fun k => by have := h1 k; rw [List.length_append]; omega, ?_⟩
  rwa [Sharing.read_congr (fun k => List.getElem?_append_left (h1 k))]

/-- cells after an in-place conversion -/
theorem itoHeap_get (R : Registry N XR) (heap : List (Qty N XR)) (r : Nat) (u : Units N) (j : Nat) :
    (itoHeap R heap r u)[j]? = heap[j]? ∨
      ∃ q q', heap[j]? = some q ∧ (itoHeap R heap r u)[j]? = some q' ∧ Same R q q' := by
  unfold itoHeap
  cases h : heap[r]? with
  | none => exact .inl rfl
  | some q =>
    simp only
    cases hq : q.toUnit R u with
    | error e => exact .inl rfl
    | ok q' =>
      simp only
      by_cases hj : r = j
      · subst hj
        refine .inr ⟨q, q', h, ?_, u, hq⟩
        have : r < heap.length := (List.getElem?_eq_some_iff.mp h).1
        simp [this]
      · exact .inl (List.getElem?_set_ne hj)

theorem itoHeap_length (R : Registry N XR) (heap : List (Qty N XR)) (r : Nat) (u : Units N) :
    (itoHeap R heap r u).length = heap.length := by
  unfold itoHeap
  cases heap[r]? with
  | none => rfl
  | some q => simp only; cases q.toUnit R u <;> simp

/-- an object after an in-place conversion of one of the cells -/
theorem Sharing.Laws.read_ito (LC : C.Laws R P) {heap : List (Qty N XR)} {o : Obj K σ} (h : ∀ k, o.refs k < heap.length)
    (r : Nat) (u : Units N) : ∃ p, C.read (itoHeap R heap r u) o = C.withParams (C.read heap o) p ∧
      ∀ k, Same R (C.param (C.read heap o) k) (p k) := by
  refine ⟨C.param (C.read (itoHeap R heap r u) o), ?_, fun k => ?_⟩
  · rw [Sharing.read, Sharing.read, LC.get, LC.twice]
  · have e1 := LC.read_param heap o h k
    have e2 := LC.read_param (itoHeap R heap r u) o (by rw [itoHeap_length]; exact h) k
    rcases itoHeap_get R heap r u (o.refs k) with hh | ⟨q, q', h1, h2, h3⟩
    · rw [hh, e1] at e2
      rw [← Option.some.inj e2]; exact Same.refl _
    · rw [e1] at h1; rw [e2] at h2
      cases h1; cases h2; exact h3

theorem Sharing.Laws.inv_ito (LC : C.Laws R P) {heap : List (Qty N XR)} {objs : List (Obj K σ)} (h : C.Inv P heap objs)
    (r : Nat) (u : Units N) : C.Inv P (itoHeap R heap r u) objs := by
  intro o ho
  obtain ⟨h1, h2⟩ := h o ho
  refine ⟨by rw [itoHeap_length]; exact h1, ?_⟩
  obtain ⟨p, e, hp⟩ := LC.read_ito h1 r u
  rw [e]
  exact LC.relabel _ h2 p hp

/-- replacing one object -/
theorem Sharing.Inv.set {heap : List (Qty N XR)} {objs : List (Obj K σ)} (h : C.Inv P heap objs) (i : Nat) {o : Obj K σ}
    (h1 : ∀ k, o.refs k < heap.length) (h2 : P (C.read heap o)) : C.Inv P heap (objs.set i o) := by
  intro x hx
  rcases List.mem_or_eq_of_mem_set hx with hx | rfl
  · exact h x hx
  · exact ⟨h1, h2⟩

theorem Sharing.act_heap (C : Sharing N XR K σ) (heap : List (Qty N XR)) (objs : List (Obj K σ)) (a : Action N XR K) :
    ∃ l, (C.act heap objs a).1 = heap ++ l := by
  cases a with
  | create ρ =>
    simp only [Sharing.act]
    split
    · split <;> exact ⟨[], by simp⟩
    · exact ⟨[], by simp⟩
  | assign i k r =>
    simp only [Sharing.act]
    split
    · split <;> exact ⟨[], by simp⟩
    · exact ⟨[], by simp⟩
  | call i x =>
    simp only [Sharing.act]
    split <;> exact ⟨[], by simp⟩
  | runScenarios i dv s =>
    simp only [Sharing.act]
    split
    · split
      · exact ⟨_, rfl⟩
      · exact ⟨[], by simp⟩
    · exact ⟨[], by simp⟩

theorem Sharing.Laws.inv_act (LC : C.Laws R P) {heap : List (Qty N XR)} {objs : List (Obj K σ)} (h : C.Inv P heap objs)
    (a : Action N XR K) : C.Inv P (C.act heap objs a).1 (C.act heap objs a).2 := by
  cases a with
  | create ρ =>
    simp only [Sharing.act]
    split
    · next hρ =>
      split
      · next m hm =>
        obtain ⟨h1, h2⟩ := LC.init _ _ hm
        intro o ho
        rcases List.mem_append.mp ho with ho | ho
        · exact h o ho
        · obtain rfl := List.mem_singleton.mp ho
          refine ⟨hρ, ?_⟩
          rw [LC.read_eq]
          · exact h1
          · intro k
            show heap[ρ k]? = some (C.param m k)
            simp [h2, hρ k]
      · exact h
    · exact h
  | assign i k r =>
    simp only [Sharing.act]
    cases ho : objs[i]? with
    | none => exact h
    | some o =>
    cases hq : heap[r]? with
    | none => exact h
    | some q =>
    obtain ⟨h1, h2⟩ := h o (List.mem_of_getElem? ho)
    obtain ⟨a1, a2, a3⟩ := LC.assign _ h2 k q
    have hc := LC.read_param heap o h1
    simp only
    rcases hx : C.assign k q (C.read heap o) with ⟨m, e | ⟨⟩⟩
    · rw [hx] at a1 a3
      refine h.set i h1 ?_
      rw [LC.read_eq]
      · exact a1
      · intro k'
        show heap[o.refs k']? = some (C.param m k')
        rw [a3 e rfl]; exact hc k'
    · rw [hx] at a1 a2
      have hr : r < heap.length := (List.getElem?_eq_some_iff.mp hq).1
      refine h.set i ?_ ?_
      · intro k'
        show Function.update o.refs k r k' < _
        by_cases hk : k' = k
        · subst hk; rw [Function.update_self]; exact hr
        · rw [Function.update_of_ne hk]; exact h1 k'
      · rw [LC.read_eq]
        · exact a1
        · intro k'
          show heap[Function.update o.refs k r k']? = some (C.param m k')
          rw [show C.param m = _ from a2 rfl]
          by_cases hk : k' = k
          · subst hk; rw [Function.update_self, Function.update_self]; exact hq
          · rw [Function.update_of_ne hk, Function.update_of_ne hk]; exact hc k'
  | call i x =>
    simp only [Sharing.act]
    cases ho : objs[i]? with
    | none => exact h
    | some o =>
    obtain ⟨h1, h2⟩ := h o (List.mem_of_getElem? ho)
    obtain ⟨a1, a2⟩ := LC.method _ h2 x
    refine h.set i h1 ?_
    rw [LC.read_eq]
    · exact a1
    · intro k
      show heap[o.refs k]? = some (C.param (C.method x (C.read heap o)).1 k)
      rw [a2]; exact LC.read_param heap o h1 k
  | runScenarios i dv s =>
    simp only [Sharing.act]
    cases ho : objs[i]? with
    | none => exact h
    | some o =>
    obtain ⟨h1, h2⟩ := h o (List.mem_of_getElem? ho)
    obtain ⟨a1, a2, a3⟩ := LC.scen _ h2 dv s
    have hc := LC.read_param heap o h1
    simp only
    cases hs : setsStep dv s with
    | false =>
      refine h.set i h1 ?_
      rw [LC.read_eq]
      · exact a1
      · intro k
        show heap[o.refs k]? = some (C.param (C.runScenarios dv s (C.read heap o)).1 k)
        rw [a2 hs]; exact hc k
    | true =>
      refine (h.append _).set i ?_ ?_
      · intro k
        show Function.update o.refs C.dt heap.length k < _
        rw [List.length_append, List.length_singleton]
        by_cases hk : k = C.dt
        · subst hk; rw [Function.update_self]; omega
        · rw [Function.update_of_ne hk]; have := h1 k; omega
      · rw [LC.read_eq]
        · exact a1
        · intro k
          show (heap ++ [C.param (C.runScenarios dv s (C.read heap o)).1 C.dt])[Function.update o.refs C.dt heap.length k]?
            = some (C.param (C.runScenarios dv s (C.read heap o)).1 k)
          by_cases hk : k = C.dt
          · subst hk; rw [Function.update_self]; simp
          · rw [Function.update_of_ne hk, List.getElem?_append_left (h1 k), a3 k hk]; exact hc k
end heap

/-! ## The two classes -/

section classes
variable {N : Type} [Fintype N] [DecidableEq N] {R : Registry N XR}

theorem setsStep_iff {α : Type} [Arith α] [DecidableEq α] {S : Registry N α} (dv : String) (scen : ScmRun α) :
    setsStep dv scen = true ↔ (∃ r ∈ scen.rows, Selected dv r) ∧ ∃ dt : Qty N α, AxisStep S scen.times dt := by
  have h1 : (scen.rows.filter (selects dv)).isEmpty = false ↔ ∃ r ∈ scen.rows, Selected dv r := by
    rw [List.isEmpty_eq_false_iff_exists_mem]
    constructor
    · rintro ⟨r, hr⟩
      obtain ⟨a, b⟩ := List.mem_filter.mp hr
      exact ⟨r, a, (selects_iff _ _).mp b⟩
    · rintro ⟨r, a, b⟩
      exact ⟨r, List.mem_filter.mpr ⟨a, (selects_iff _ _).mpr b⟩⟩
  rw [setsStep, Bool.and_eq_true, Bool.not_eq_true', h1]
  refine and_congr_right fun _ => ?_
  constructor
  · intro h
    cases hts : selectTimestep scen.times with
    | error e => rw [hts] at h; cases h
    | ok ts => exact ⟨_, (axisStep_iff _ _).mpr ⟨ts, hts, rfl⟩⟩
  · rintro ⟨dt, h⟩
    obtain ⟨ts, hts, -⟩ := (axisStep_iff _ _).mp h
    rw [hts]


/-- the public parameters, by name -/
def TLM.paramOf (p : TLM.Public N XR) : TPar → Qty N XR
  | .du => p.du | .dl => p.dl | .lambda0 => p.lambda0 | .a => p.a | .efficacy => p.efficacy | .eta => p.eta | .deltaT => p.deltaT

theorem TLM.param_pub (m : TLM N XR) : (TLM.sharing R).param m = TLM.paramOf m.pub := by
  funext k; cases k <;> rfl

theorem TLM.relabel_du (L : R.Lawful) {m : TLM N XR} (h : TLM.Reachable R m) {q : Qty N XR} (hs : Same R m.du q) :
    TLM.Reachable R { m with du := q } := by
  have hc := TLM.Reachable.coherent R L.toDimensional h
  have hq := (hs.unitOk L).mpr hc.duUnit
  have e : (TLM.call R (.setDu (.qty q)) m).1 = { m with du := q } := by
    show (TLM.setDu R (.qty q) m).1 = _
    rw [TLM.setDu_ok R L.toDimensional hq, hs.magIn L hc.duUnit, hs.heat L hc.duUnit, ← hc.duMag]
    have := hc.hcuMag
    unfold TLM.heatCapacityUpper at this
    rw [← this]
  rw [← e]; exact h.call _

theorem TLM.relabel_dl (L : R.Lawful) {m : TLM N XR} (h : TLM.Reachable R m) {q : Qty N XR} (hs : Same R m.dl q) :
    TLM.Reachable R { m with dl := q } := by
  have hc := TLM.Reachable.coherent R L.toDimensional h
  have hq := (hs.unitOk L).mpr hc.dlUnit
  have e : (TLM.call R (.setDl (.qty q)) m).1 = { m with dl := q } := by
    show (TLM.setDl R (.qty q) m).1 = _
    rw [TLM.setDl_ok R L.toDimensional hq, hs.magIn L hc.dlUnit, hs.heat L hc.dlUnit, ← hc.dlMag]
    have := hc.hclMag
    unfold TLM.heatCapacityLower at this
    rw [← this]
  rw [← e]; exact h.call _

theorem TLM.relabel_lambda0 (L : R.Lawful) {m : TLM N XR} (h : TLM.Reachable R m) {q : Qty N XR} (hs : Same R m.lambda0 q) :
    TLM.Reachable R { m with lambda0 := q } := by
  have hc := TLM.Reachable.coherent R L.toDimensional h
  have hq := (hs.unitOk L).mpr hc.lambda0Unit
  have e : (TLM.call R (.setLambda0 (.qty q)) m).1 = { m with lambda0 := q } := by
    show (TLM.setLambda0 R (.qty q) m).1 = _
    simp only [TLM.setLambda0, Py.bind_apply, Py.lift_apply, checkQty_ok.mpr ⟨rfl, hq⟩, Py.modify_apply,
      hs.magIn L hc.lambda0Unit, ← hc.lambda0Mag]
  rw [← e]; exact h.call _

theorem TLM.relabel_a (L : R.Lawful) {m : TLM N XR} (h : TLM.Reachable R m) {q : Qty N XR} (hs : Same R m.a q) :
    TLM.Reachable R { m with a := q } := by
  have hc := TLM.Reachable.coherent R L.toDimensional h
  have hq := (hs.unitOk L).mpr hc.aUnit
  have e : (TLM.call R (.setA (.qty q)) m).1 = { m with a := q } := by
    show (TLM.setA R (.qty q) m).1 = _
    simp only [TLM.setA, Py.bind_apply, Py.lift_apply, checkQty_ok.mpr ⟨rfl, hq⟩, Py.modify_apply,
      hs.magIn L hc.aUnit, ← hc.aMag]
  rw [← e]; exact h.call _

theorem TLM.relabel_efficacy (L : R.Lawful) {m : TLM N XR} (h : TLM.Reachable R m) {q : Qty N XR} (hs : Same R m.efficacy q) :
    TLM.Reachable R { m with efficacy := q } := by
  have hc := TLM.Reachable.coherent R L.toDimensional h
  have hq := (hs.unitOk L).mpr hc.efficacyUnit
  have e : (TLM.call R (.setEfficacy (.qty q)) m).1 = { m with efficacy := q } := by
    show (TLM.setEfficacy R (.qty q) m).1 = _
    simp only [TLM.setEfficacy, Py.bind_apply, Py.lift_apply, checkQty_ok.mpr ⟨rfl, hq⟩, Py.modify_apply,
      hs.magIn L hc.efficacyUnit, ← hc.efficacyMag]
  rw [← e]; exact h.call _

theorem TLM.relabel_eta (L : R.Lawful) {m : TLM N XR} (h : TLM.Reachable R m) {q : Qty N XR} (hs : Same R m.eta q) :
    TLM.Reachable R { m with eta := q } := by
  have hc := TLM.Reachable.coherent R L.toDimensional h
  have hq := (hs.unitOk L).mpr hc.etaUnit
  have e : (TLM.call R (.setEta (.qty q)) m).1 = { m with eta := q } := by
    show (TLM.setEta R (.qty q) m).1 = _
    simp only [TLM.setEta, Py.bind_apply, Py.lift_apply, checkQty_ok.mpr ⟨rfl, hq⟩, Py.modify_apply,
      hs.magIn L hc.etaUnit, ← hc.etaMag]
  rw [← e]; exact h.call _

theorem TLM.relabel_deltaT (L : R.Lawful) {m : TLM N XR} (h : TLM.Reachable R m) {q : Qty N XR}
    (hs : Same R m.core.deltaT q) : TLM.Reachable R { m with core := { m.core with deltaT := q } } := by
  have hc := (TLM.Reachable.coherent R L.toDimensional h).core
  have hq := (hs.unitOk L).mpr hc.dtUnit
  have e : (TLM.call R (.setDeltaT (.qty q)) m).1 = { m with core := { m.core with deltaT := q } } := by
    show (TLM.setDeltaT R (.qty q) m).1 = _
    simp only [TLM.setDeltaT, Py.onCore, Core.setDeltaT, Py.bind_apply, Py.lift_apply, checkQty_ok.mpr ⟨rfl, hq⟩,
      Py.modify_apply, hs.magIn L hc.dtUnit, ← hc.dtMag]
  rw [← e]; exact h.call _

theorem TLM.sharing_laws (L : R.Lawful) : (TLM.sharing R).Laws R (TLM.Reachable R) where
  self _ := rfl
  twice _ _ _ := rfl
  get m p := by funext k; cases k <;> rfl
  init p m h := by
    refine ⟨⟨_, m, [], h, rfl⟩, ?_⟩
    obtain ⟨x0, x1, x2, x3, x4, x5, x6, hx, -, -, -, -, -, -, -, rfl⟩ := TLM.init_ok R h
    cases hx
    funext k; cases k <;> rfl
  assign m h k q := by
    obtain ⟨s1, s2, s3, s4, s5, s6, s7⟩ := C11_two_layer L.toDimensional
    cases k with
    | du =>
      refine ⟨h.call (.setDu (.qty q)), ?_⟩
      show ((TLM.setDu R (.qty q) m).2 = .ok () → (TLM.sharing R).param (TLM.setDu R (.qty q) m).1 = _) ∧
        ∀ e, (TLM.setDu R (.qty q) m).2 = .error e → (TLM.sharing R).param (TLM.setDu R (.qty q) m).1 = _
      by_cases hq : Convertible R q R.m
      · obtain ⟨m', h1, h2, -⟩ := s1.right m q hq
        rw [h1]
        refine ⟨fun _ => ?_, fun e he => by cases he⟩
        rw [TLM.param_pub, TLM.param_pub, h2]; funext k; cases k <;> rfl
      · rw [s1.wrong m q hq]
        exact ⟨fun he => (by cases he), fun _ _ => rfl⟩
    | dl =>
      refine ⟨h.call (.setDl (.qty q)), ?_⟩
      show ((TLM.setDl R (.qty q) m).2 = .ok () → (TLM.sharing R).param (TLM.setDl R (.qty q) m).1 = _) ∧
        ∀ e, (TLM.setDl R (.qty q) m).2 = .error e → (TLM.sharing R).param (TLM.setDl R (.qty q) m).1 = _
      by_cases hq : Convertible R q R.m
      · obtain ⟨m', h1, h2, -⟩ := s2.right m q hq
        rw [h1]
        refine ⟨fun _ => ?_, fun e he => by cases he⟩
        rw [TLM.param_pub, TLM.param_pub, h2]; funext k; cases k <;> rfl
      · rw [s2.wrong m q hq]
        exact ⟨fun he => (by cases he), fun _ _ => rfl⟩
    | lambda0 =>
      refine ⟨h.call (.setLambda0 (.qty q)), ?_⟩
      show ((TLM.setLambda0 R (.qty q) m).2 = .ok () → (TLM.sharing R).param (TLM.setLambda0 R (.qty q) m).1 = _) ∧
        ∀ e, (TLM.setLambda0 R (.qty q) m).2 = .error e → (TLM.sharing R).param (TLM.setLambda0 R (.qty q) m).1 = _
      by_cases hq : Convertible R q R.wm2c
      · obtain ⟨m', h1, h2, -⟩ := s3.right m q hq
        rw [h1]
        refine ⟨fun _ => ?_, fun e he => by cases he⟩
        rw [TLM.param_pub, TLM.param_pub, h2]; funext k; cases k <;> rfl
      · rw [s3.wrong m q hq]
        exact ⟨fun he => (by cases he), fun _ _ => rfl⟩
    | a =>
      refine ⟨h.call (.setA (.qty q)), ?_⟩
      show ((TLM.setA R (.qty q) m).2 = .ok () → (TLM.sharing R).param (TLM.setA R (.qty q) m).1 = _) ∧
        ∀ e, (TLM.setA R (.qty q) m).2 = .error e → (TLM.sharing R).param (TLM.setA R (.qty q) m).1 = _
      by_cases hq : Convertible R q R.wm2cc
      · obtain ⟨m', h1, h2, -⟩ := s4.right m q hq
        rw [h1]
        refine ⟨fun _ => ?_, fun e he => by cases he⟩
        rw [TLM.param_pub, TLM.param_pub, h2]; funext k; cases k <;> rfl
      · rw [s4.wrong m q hq]
        exact ⟨fun he => (by cases he), fun _ _ => rfl⟩
    | efficacy =>
      refine ⟨h.call (.setEfficacy (.qty q)), ?_⟩
      show ((TLM.setEfficacy R (.qty q) m).2 = .ok () → (TLM.sharing R).param (TLM.setEfficacy R (.qty q) m).1 = _) ∧
        ∀ e, (TLM.setEfficacy R (.qty q) m).2 = .error e → (TLM.sharing R).param (TLM.setEfficacy R (.qty q) m).1 = _
      by_cases hq : Convertible R q R.one
      · obtain ⟨m', h1, h2, -⟩ := s5.right m q hq
        rw [h1]
        refine ⟨fun _ => ?_, fun e he => by cases he⟩
        rw [TLM.param_pub, TLM.param_pub, h2]; funext k; cases k <;> rfl
      · rw [s5.wrong m q hq]
        exact ⟨fun he => (by cases he), fun _ _ => rfl⟩
    | eta =>
      refine ⟨h.call (.setEta (.qty q)), ?_⟩
      show ((TLM.setEta R (.qty q) m).2 = .ok () → (TLM.sharing R).param (TLM.setEta R (.qty q) m).1 = _) ∧
        ∀ e, (TLM.setEta R (.qty q) m).2 = .error e → (TLM.sharing R).param (TLM.setEta R (.qty q) m).1 = _
      by_cases hq : Convertible R q R.wm2c
      · obtain ⟨m', h1, h2, -⟩ := s6.right m q hq
        rw [h1]
        refine ⟨fun _ => ?_, fun e he => by cases he⟩
        rw [TLM.param_pub, TLM.param_pub, h2]; funext k; cases k <;> rfl
      · rw [s6.wrong m q hq]
        exact ⟨fun he => (by cases he), fun _ _ => rfl⟩
    | deltaT =>
      refine ⟨h.call (.setDeltaT (.qty q)), ?_⟩
      show ((TLM.setDeltaT R (.qty q) m).2 = .ok () → (TLM.sharing R).param (TLM.setDeltaT R (.qty q) m).1 = _) ∧
        ∀ e, (TLM.setDeltaT R (.qty q) m).2 = .error e → (TLM.sharing R).param (TLM.setDeltaT R (.qty q) m).1 = _
      by_cases hq : Convertible R q R.s
      · obtain ⟨m', h1, h2, -⟩ := s7.right m q hq
        rw [h1]
        refine ⟨fun _ => ?_, fun e he => by cases he⟩
        rw [TLM.param_pub, TLM.param_pub, h2]; funext k; cases k <;> rfl
      · rw [s7.wrong m q hq]
        exact ⟨fun he => (by cases he), fun _ _ => rfl⟩
  method m h x := by
    have hc := TLM.Reachable.coherent R L.toDimensional h
    have key : ∀ op, (TLM.call R op m).1.pub = m.pub →
        (TLM.sharing R).param (TLM.call R op m).1 = (TLM.sharing R).param m := by
      intro op hop; rw [TLM.param_pub, TLM.param_pub, hop]
    cases x with
    | setErf v =>
      refine ⟨h.call (.setErf v), key (.setErf v) ?_⟩
      have := TLM.becomes L.toDimensional hc (.setErf v); generalize (TLM.call R _ m).1.pub = z at this; cases this; rfl
    | setDrivers v =>
      refine ⟨h.call (.setDrivers v), key (.setDrivers v) ?_⟩
      have := TLM.becomes L.toDimensional hc (.setDrivers v); generalize (TLM.call R _ m).1.pub = z at this; cases this; rfl
    | reset =>
      refine ⟨h.call .reset, key .reset ?_⟩
      have := TLM.becomes L.toDimensional hc .reset; generalize (TLM.call R _ m).1.pub = z at this; cases this; rfl
    | step =>
      refine ⟨h.call .step, key .step ?_⟩
      have := TLM.becomes L.toDimensional hc .step; generalize (TLM.call R _ m).1.pub = z at this; cases this; rfl
    | run =>
      refine ⟨h.call .run, key .run ?_⟩
      have := TLM.becomes L.toDimensional hc .run; generalize (TLM.call R _ m).1.pub = z at this; cases this; rfl
  scen m h dv s := by
    have hc := TLM.Reachable.coherent R L.toDimensional h
    have hb := TLM.becomes L.toDimensional hc (.runScenarios dv s)
    have e : (TLM.sharing R).param ((TLM.sharing R).runScenarios dv s m).1 = TLM.paramOf (TLM.call R (.runScenarios dv s) m).1.pub :=
      TLM.param_pub _
    rw [e, TLM.param_pub]
    refine ⟨h.call (.runScenarios dv s), ?_⟩
    generalize (TLM.call R (.runScenarios dv s) m).1.pub = z at hb
    cases hb with
    | runScenarios hq =>
      constructor
      · intro hs
        have hn : ¬ ((∃ r ∈ s.rows, Selected dv r) ∧ ∃ dt : Qty N XR, AxisStep R s.times dt) := by
          rw [← setsStep_iff, hs]; simp
        cases hq with
        | step a b => exact absurd ⟨a, _, b⟩ hn
        | nothing _ => rfl
        | noStep _ => rfl
      · intro k hk
        cases k <;> first | rfl | exact absurd rfl hk
  relabel m h p hp := by
    have h1 := TLM.relabel_du L h (hp .du)
    have h2 := TLM.relabel_dl L h1 (hp .dl)
    have h3 := TLM.relabel_lambda0 L h2 (hp .lambda0)
    have h4 := TLM.relabel_a L h3 (hp .a)
    have h5 := TLM.relabel_efficacy L h4 (hp .efficacy)
    have h6 := TLM.relabel_eta L h5 (hp .eta)
    have h7 := TLM.relabel_deltaT L h6 (hp .deltaT)
    exact h7

/-- the public parameters, by name -/
def IRM.paramOf (p : IRM.Public N XR) : IPar → Qty N XR
  | .q1 => p.q1 | .q2 => p.q2 | .d1 => p.d1 | .d2 => p.d2 | .efficacy => p.efficacy | .deltaT => p.deltaT

theorem IRM.param_pub (m : IRM N XR) : (IRM.sharing R).param m = IRM.paramOf m.pub := by
  funext k; cases k <;> rfl

theorem IRM.relabel_q1 (L : R.Lawful) {m : IRM N XR} (h : IRM.Reachable R m) {q : Qty N XR} (hs : Same R m.q1 q) :
    IRM.Reachable R { m with q1 := q } := by
  have hc := IRM.Reachable.coherent R h
  have hq := (hs.unitOk L).mpr hc.q1Unit
  have e : (IRM.call R (.setQ1 (.qty q)) m).1 = { m with q1 := q } := by
    show (IRM.setQ1 R (.qty q) m).1 = _
    simp only [IRM.setQ1, Py.bind_apply, Py.lift_apply, checkQty_ok.mpr ⟨rfl, hq⟩, Py.modify_apply,
      hs.magIn L hc.q1Unit, ← hc.q1Mag]
  rw [← e]; exact h.call _

theorem IRM.relabel_q2 (L : R.Lawful) {m : IRM N XR} (h : IRM.Reachable R m) {q : Qty N XR} (hs : Same R m.q2 q) :
    IRM.Reachable R { m with q2 := q } := by
  have hc := IRM.Reachable.coherent R h
  have hq := (hs.unitOk L).mpr hc.q2Unit
  have e : (IRM.call R (.setQ2 (.qty q)) m).1 = { m with q2 := q } := by
    show (IRM.setQ2 R (.qty q) m).1 = _
    simp only [IRM.setQ2, Py.bind_apply, Py.lift_apply, checkQty_ok.mpr ⟨rfl, hq⟩, Py.modify_apply,
      hs.magIn L hc.q2Unit, ← hc.q2Mag]
  rw [← e]; exact h.call _

theorem IRM.relabel_d1 (L : R.Lawful) {m : IRM N XR} (h : IRM.Reachable R m) {q : Qty N XR} (hs : Same R m.d1 q) :
    IRM.Reachable R { m with d1 := q } := by
  have hc := IRM.Reachable.coherent R h
  have hq := (hs.unitOk L).mpr hc.d1Unit
  have e : (IRM.call R (.setD1 (.qty q)) m).1 = { m with d1 := q } := by
    show (IRM.setD1 R (.qty q) m).1 = _
    simp only [IRM.setD1, Py.bind_apply, Py.lift_apply, checkQty_ok.mpr ⟨rfl, hq⟩, Py.modify_apply,
      hs.magIn L hc.d1Unit, ← hc.d1Mag]
  rw [← e]; exact h.call _

theorem IRM.relabel_d2 (L : R.Lawful) {m : IRM N XR} (h : IRM.Reachable R m) {q : Qty N XR} (hs : Same R m.d2 q) :
    IRM.Reachable R { m with d2 := q } := by
  have hc := IRM.Reachable.coherent R h
  have hq := (hs.unitOk L).mpr hc.d2Unit
  have e : (IRM.call R (.setD2 (.qty q)) m).1 = { m with d2 := q } := by
    show (IRM.setD2 R (.qty q) m).1 = _
    simp only [IRM.setD2, Py.bind_apply, Py.lift_apply, checkQty_ok.mpr ⟨rfl, hq⟩, Py.modify_apply,
      hs.magIn L hc.d2Unit, ← hc.d2Mag]
  rw [← e]; exact h.call _

theorem IRM.relabel_efficacy (L : R.Lawful) {m : IRM N XR} (h : IRM.Reachable R m) {q : Qty N XR} (hs : Same R m.efficacy q) :
    IRM.Reachable R { m with efficacy := q } := by
  have hc := IRM.Reachable.coherent R h
  have hq := (hs.unitOk L).mpr hc.efficacyUnit
  have e : (IRM.call R (.setEfficacy (.qty q)) m).1 = { m with efficacy := q } := by
    show (IRM.setEfficacy R (.qty q) m).1 = _
    simp only [IRM.setEfficacy, Py.bind_apply, Py.lift_apply, checkQty_ok.mpr ⟨rfl, hq⟩, Py.modify_apply,
      hs.magIn L hc.efficacyUnit, ← hc.efficacyMag]
  rw [← e]; exact h.call _

theorem IRM.relabel_deltaT (L : R.Lawful) {m : IRM N XR} (h : IRM.Reachable R m) {q : Qty N XR}
    (hs : Same R m.core.deltaT q) : IRM.Reachable R { m with core := { m.core with deltaT := q } } := by
  have hc := (IRM.Reachable.coherent R h).core
  have hq := (hs.unitOk L).mpr hc.dtUnit
  have e : (IRM.call R (.setDeltaT (.qty q)) m).1 = { m with core := { m.core with deltaT := q } } := by
    show (IRM.setDeltaT R (.qty q) m).1 = _
    simp only [IRM.setDeltaT, Py.onCore, Core.setDeltaT, Py.bind_apply, Py.lift_apply, checkQty_ok.mpr ⟨rfl, hq⟩,
      Py.modify_apply, hs.magIn L hc.dtUnit, ← hc.dtMag]
  rw [← e]; exact h.call _

theorem IRM.sharing_laws (L : R.Lawful) : (IRM.sharing R).Laws R (IRM.Reachable R) where
  self _ := rfl
  twice _ _ _ := rfl
  get m p := by funext k; cases k <;> rfl
  init p m h := by
    refine ⟨⟨_, m, [], h, rfl⟩, ?_⟩
    obtain ⟨x0, x1, x2, x3, x4, x5, hx, -, -, -, -, -, -, -, rfl⟩ := IRM.init_ok R h
    cases hx
    funext k; cases k <;> rfl
  assign m h k q := by
    obtain ⟨s1, s2, s3, s4, s5, s6⟩ := C11_impulse_response R
    cases k with
    | q1 =>
      refine ⟨h.call (.setQ1 (.qty q)), ?_⟩
      show ((IRM.setQ1 R (.qty q) m).2 = .ok () → (IRM.sharing R).param (IRM.setQ1 R (.qty q) m).1 = _) ∧
        ∀ e, (IRM.setQ1 R (.qty q) m).2 = .error e → (IRM.sharing R).param (IRM.setQ1 R (.qty q) m).1 = _
      by_cases hq : Convertible R q R.cwm2
      · obtain ⟨m', h1, h2, -⟩ := s1.right m q hq
        rw [h1]
        refine ⟨fun _ => ?_, fun e he => by cases he⟩
        rw [IRM.param_pub, IRM.param_pub, h2]; funext k; cases k <;> rfl
      · rw [s1.wrong m q hq]
        exact ⟨fun he => (by cases he), fun _ _ => rfl⟩
    | q2 =>
      refine ⟨h.call (.setQ2 (.qty q)), ?_⟩
      show ((IRM.setQ2 R (.qty q) m).2 = .ok () → (IRM.sharing R).param (IRM.setQ2 R (.qty q) m).1 = _) ∧
        ∀ e, (IRM.setQ2 R (.qty q) m).2 = .error e → (IRM.sharing R).param (IRM.setQ2 R (.qty q) m).1 = _
      by_cases hq : Convertible R q R.cwm2
      · obtain ⟨m', h1, h2, -⟩ := s2.right m q hq
        rw [h1]
        refine ⟨fun _ => ?_, fun e he => by cases he⟩
        rw [IRM.param_pub, IRM.param_pub, h2]; funext k; cases k <;> rfl
      · rw [s2.wrong m q hq]
        exact ⟨fun he => (by cases he), fun _ _ => rfl⟩
    | d1 =>
      refine ⟨h.call (.setD1 (.qty q)), ?_⟩
      show ((IRM.setD1 R (.qty q) m).2 = .ok () → (IRM.sharing R).param (IRM.setD1 R (.qty q) m).1 = _) ∧
        ∀ e, (IRM.setD1 R (.qty q) m).2 = .error e → (IRM.sharing R).param (IRM.setD1 R (.qty q) m).1 = _
      by_cases hq : Convertible R q R.yr
      · obtain ⟨m', h1, h2, -⟩ := s3.right m q hq
        rw [h1]
        refine ⟨fun _ => ?_, fun e he => by cases he⟩
        rw [IRM.param_pub, IRM.param_pub, h2]; funext k; cases k <;> rfl
      · rw [s3.wrong m q hq]
        exact ⟨fun he => (by cases he), fun _ _ => rfl⟩
    | d2 =>
      refine ⟨h.call (.setD2 (.qty q)), ?_⟩
      show ((IRM.setD2 R (.qty q) m).2 = .ok () → (IRM.sharing R).param (IRM.setD2 R (.qty q) m).1 = _) ∧
        ∀ e, (IRM.setD2 R (.qty q) m).2 = .error e → (IRM.sharing R).param (IRM.setD2 R (.qty q) m).1 = _
      by_cases hq : Convertible R q R.yr
      · obtain ⟨m', h1, h2, -⟩ := s4.right m q hq
        rw [h1]
        refine ⟨fun _ => ?_, fun e he => by cases he⟩
        rw [IRM.param_pub, IRM.param_pub, h2]; funext k; cases k <;> rfl
      · rw [s4.wrong m q hq]
        exact ⟨fun he => (by cases he), fun _ _ => rfl⟩
    | efficacy =>
      refine ⟨h.call (.setEfficacy (.qty q)), ?_⟩
      show ((IRM.setEfficacy R (.qty q) m).2 = .ok () → (IRM.sharing R).param (IRM.setEfficacy R (.qty q) m).1 = _) ∧
        ∀ e, (IRM.setEfficacy R (.qty q) m).2 = .error e → (IRM.sharing R).param (IRM.setEfficacy R (.qty q) m).1 = _
      by_cases hq : Convertible R q R.one
      · obtain ⟨m', h1, h2, -⟩ := s5.right m q hq
        rw [h1]
        refine ⟨fun _ => ?_, fun e he => by cases he⟩
        rw [IRM.param_pub, IRM.param_pub, h2]; funext k; cases k <;> rfl
      · rw [s5.wrong m q hq]
        exact ⟨fun he => (by cases he), fun _ _ => rfl⟩
    | deltaT =>
      refine ⟨h.call (.setDeltaT (.qty q)), ?_⟩
      show ((IRM.setDeltaT R (.qty q) m).2 = .ok () → (IRM.sharing R).param (IRM.setDeltaT R (.qty q) m).1 = _) ∧
        ∀ e, (IRM.setDeltaT R (.qty q) m).2 = .error e → (IRM.sharing R).param (IRM.setDeltaT R (.qty q) m).1 = _
      by_cases hq : Convertible R q R.yr
      · obtain ⟨m', h1, h2, -⟩ := s6.right m q hq
        rw [h1]
        refine ⟨fun _ => ?_, fun e he => by cases he⟩
        rw [IRM.param_pub, IRM.param_pub, h2]; funext k; cases k <;> rfl
      · rw [s6.wrong m q hq]
        exact ⟨fun he => (by cases he), fun _ _ => rfl⟩
  method m h x := by
    have hc := IRM.Reachable.coherent R h
    have key : ∀ op, (IRM.call R op m).1.pub = m.pub →
        (IRM.sharing R).param (IRM.call R op m).1 = (IRM.sharing R).param m := by
      intro op hop; rw [IRM.param_pub, IRM.param_pub, hop]
    cases x with
    | setErf v =>
      refine ⟨h.call (.setErf v), key (.setErf v) ?_⟩
      have := IRM.becomes L.toDimensional hc (.setErf v); generalize (IRM.call R _ m).1.pub = z at this; cases this; rfl
    | setDrivers v =>
      refine ⟨h.call (.setDrivers v), key (.setDrivers v) ?_⟩
      have := IRM.becomes L.toDimensional hc (.setDrivers v); generalize (IRM.call R _ m).1.pub = z at this; cases this; rfl
    | reset =>
      refine ⟨h.call .reset, key .reset ?_⟩
      have := IRM.becomes L.toDimensional hc .reset; generalize (IRM.call R _ m).1.pub = z at this; cases this; rfl
    | step =>
      refine ⟨h.call .step, key .step ?_⟩
      have := IRM.becomes L.toDimensional hc .step; generalize (IRM.call R _ m).1.pub = z at this; cases this; rfl
    | run =>
      refine ⟨h.call .run, key .run ?_⟩
      have := IRM.becomes L.toDimensional hc .run; generalize (IRM.call R _ m).1.pub = z at this; cases this; rfl
  scen m h dv s := by
    have hc := IRM.Reachable.coherent R h
    have hb := IRM.becomes L.toDimensional hc (.runScenarios dv s)
    have e : (IRM.sharing R).param ((IRM.sharing R).runScenarios dv s m).1 = IRM.paramOf (IRM.call R (.runScenarios dv s) m).1.pub :=
      IRM.param_pub _
    rw [e, IRM.param_pub]
    refine ⟨h.call (.runScenarios dv s), ?_⟩
    generalize (IRM.call R (.runScenarios dv s) m).1.pub = z at hb
    cases hb with
    | runScenarios hq =>
      constructor
      · intro hs
        have hn : ¬ ((∃ r ∈ s.rows, Selected dv r) ∧ ∃ dt : Qty N XR, AxisStep R s.times dt) := by
          rw [← setsStep_iff, hs]; simp
        cases hq with
        | step a b => exact absurd ⟨a, _, b⟩ hn
        | nothing _ => rfl
        | noStep _ => rfl
      · intro k hk
        cases k <;> first | rfl | exact absurd rfl hk
  relabel m h p hp := by
    have h1 := IRM.relabel_q1 L h (hp .q1)
    have h2 := IRM.relabel_q2 L h1 (hp .q2)
    have h3 := IRM.relabel_d1 L h2 (hp .d1)
    have h4 := IRM.relabel_d2 L h3 (hp .d2)
    have h5 := IRM.relabel_efficacy L h4 (hp .efficacy)
    have h6 := IRM.relabel_deltaT L h5 (hp .deltaT)
    exact h6

/-! ## A two-layer object computes with the cached magnitudes only -/

theorem TLM.step_withParams {α : Type} [Arith α] [DecidableEq α] (R : Registry N α) (m : TLM N α) (p : TPar → Qty N α) :
    TLM.step ((TLM.sharing R).withParams m p) = ((TLM.sharing R).withParams (TLM.step m).1 p, (TLM.step m).2) := by
  obtain ⟨i, hi⟩ : ∃ i, nextIdx m.idx = i := ⟨_, rfl⟩
  have hi' : nextIdx ((TLM.sharing R).withParams m p).idx = i := hi
  simp only [TLM.step, Py.bind_apply, Py.modify_apply, Py.get_apply, hi, hi']
  cases i with
  | zero =>
    simp only [Py.bind_apply, Py.lift_apply, Py.modify_apply, TLM.sharing]
    cases setAt m.tu 0 (Arith.dec 0 1 : α) <;> try simp only []
    cases setAt m.tl 0 (Arith.dec 0 1 : α) <;> try simp only []
    cases setAt m.rndt 0 (Arith.dec 0 1 : α) <;> try simp only []
  | succ j =>
    have e1 : ∀ y, (({ (TLM.sharing R).withParams m p with idx := y } : TLM N α).core.erfAt j) = m.core.erfAt j :=
      fun _ => rfl
    simp only [Py.bind_apply, Py.lift_apply, Py.modify_apply, Py.get_apply, e1]
    simp only [TLM.sharing]
    cases getAt m.tu j with
    | error _ => rfl
    | ok tu1 =>
    cases getAt m.tl j with
    | error _ => rfl
    | ok tl1 =>
    cases m.core.erfAt j with
    | error _ => rfl
    | ok f =>
    simp only []
    generalize calcNextTempUpper m.core.deltaTMag tu1 tl1 f m.lambda0Mag m.aMag m.efficacyMag m.etaMag m.hcuMag = x
    cases setAt m.tu (j + 1) x with
    | error _ => rfl
    | ok tu2 =>
    simp only []
    cases getAt m.tl j with
    | error _ => rfl
    | ok tl1 =>
    simp only []
    cases getAt tu2 j with
    | error _ => rfl
    | ok tu1 =>
    simp only []
    cases setAt m.tl (j + 1) (calcNextTempLower m.core.deltaTMag tl1 tu1 m.etaMag m.hclMag) with
    | error _ => rfl
    | ok tl2 =>
    simp only []
    cases getAt tl2 (j + 1) with
    | error _ => rfl
    | ok a =>
    simp only []
    cases getAt tl2 j with
    | error _ => rfl
    | ok b =>
    simp only []
    cases getAt tu2 (j + 1) with
    | error _ => rfl
    | ok c =>
    simp only []
    cases getAt tu2 j with
    | error _ => rfl
    | ok d =>
    simp only []
    cases setAt m.rndt (j + 1) (calcNextRndt m.core.deltaTMag a b m.hclMag c d m.hcuMag) <;> rfl

theorem TLM.method_withParams {α : Type} [Arith α] [DecidableEq α] (R : Registry N α) (x : Method N α) (m : TLM N α)
    (p : TPar → Qty N α) : (TLM.sharing R).method x ((TLM.sharing R).withParams m p) =
      ((TLM.sharing R).withParams ((TLM.sharing R).method x m).1 p, ((TLM.sharing R).method x m).2) := by
  have herf : ∀ v, TLM.setErf R v ((TLM.sharing R).withParams m p) =
      ((TLM.sharing R).withParams (TLM.setErf R v m).1 p, (TLM.setErf R v m).2) := by
    intro v
    cases v with
    | bare a => rfl
    | qty a u =>
      simp only [TLM.setErf, Py.onCore, Core.setErf]
      split <;> rfl
  cases x with
  | setErf v => exact herf v
  | setDrivers v =>
    show TLM.setDrivers R v _ = (_, (TLM.setDrivers R v m).2)
    by_cases hd : v.dims = 1
    · have e : ∀ m, TLM.setDrivers R v m = TLM.setErf R v m := by
        intro m
        simp only [TLM.setDrivers, TLM.setErf, Py.onCore]
        have : Core.setDrivers R v m.core = Core.setErf R v m.core := by
          cases v <;> exact congrFun (if_neg (by simpa [DArg.dims] using hd)) m.core
        rw [this]
      show _ = ((TLM.sharing R).withParams (TLM.setDrivers R v m).1 p, _)
      rw [e, e, herf v]
    · have e : ∀ m, TLM.setDrivers R v m = (m, .error (.assertion "erf must be one-dimensional")) := by
        intro m
        simp only [TLM.setDrivers, Py.onCore]
        have : Core.setDrivers R v m.core = Py.throw (.assertion "erf must be one-dimensional") m.core := by
          cases v <;> exact congrFun (if_pos hd) m.core
        rw [this]; rfl
      show _ = ((TLM.sharing R).withParams (TLM.setDrivers R v m).1 p, _)
      rw [e, e]
  | reset =>
    show TLM.reset _ = ((TLM.sharing R).withParams (TLM.reset m).1 p, (TLM.reset m).2)
    obtain ⟨_, _, _, _, _, _, _, _, _, _, _, _, _, _, ⟨_, _, erf, erfMag⟩, _, _, _, _⟩ := m
    by_cases hN : erf.anyNaN = true <;> cases erfMag <;>
      simp [TLM.reset, TLM.sharing, hN]
  | step => exact TLM.step_withParams R m p
  | run =>
    have key : ∀ k m, Py.times TLM.step k ((TLM.sharing R).withParams m p) =
        ((TLM.sharing R).withParams (Py.times TLM.step k m).1 p, (Py.times TLM.step k m).2) := by
      intro k
      induction k with
      | zero => intro m; rfl
      | succ k ih =>
        intro m
        rw [Py.times_succ, Py.times_succ, TLM.step_withParams R]
        rcases TLM.step m with ⟨s, _ | _⟩
        · rfl
        · exact ih s
    exact key _ m

theorem TLM.callAll_withParams {α : Type} [Arith α] [DecidableEq α] (R : Registry N α) (xs : List (Method N α)) :
    ∀ (m : TLM N α) (p : TPar → Qty N α), callAll (xs.map (TLM.sharing R).method) ((TLM.sharing R).withParams m p) =
      ((TLM.sharing R).withParams (callAll (xs.map (TLM.sharing R).method) m).1 p,
        (callAll (xs.map (TLM.sharing R).method) m).2) := by
  induction xs with
  | nil => intro m p; rfl
  | cons x xs ih =>
    intro m p
    simp only [List.map_cons, callAll, TLM.method_withParams, ih]

/-! ## The world -/

/-- every object of both classes is one the rest of the development speaks of -/
def World.Inv (R : Registry N XR) (w : World N XR) : Prop :=
  (TLM.sharing R).Inv (TLM.Reachable R) w.heap w.tl ∧ (IRM.sharing R).Inv (IRM.Reachable R) w.heap w.ir

theorem World.inv_exec (L : R.Lawful) {w : World N XR} (h : w.Inv R) (e : Event N XR) : (w.exec R e).Inv R := by
  cases e with
  | quantity q => exact ⟨h.1.append _, h.2.append _⟩
  | ito r u => exact ⟨(TLM.sharing_laws L).inv_ito h.1 r u, (IRM.sharing_laws L).inv_ito h.2 r u⟩
  | tl a =>
    refine ⟨(TLM.sharing_laws L).inv_act h.1 a, ?_⟩
    obtain ⟨l, hl⟩ := (TLM.sharing R).act_heap w.heap w.tl a
    show (IRM.sharing R).Inv _ ((TLM.sharing R).act w.heap w.tl a).1 w.ir
    rw [hl]; exact h.2.append l
  | ir a =>
    refine ⟨?_, (IRM.sharing_laws L).inv_act h.2 a⟩
    obtain ⟨l, hl⟩ := (IRM.sharing R).act_heap w.heap w.ir a
    show (TLM.sharing R).Inv _ ((IRM.sharing R).act w.heap w.ir a).1 w.tl
    rw [hl]; exact h.1.append l

theorem World.inv_execs (L : R.Lawful) (p : List (Event N XR)) : ∀ {w : World N XR}, w.Inv R → (w.execs R p).Inv R := by
  induction p with
  | nil => intro w h; exact h
  | cons e p ih => intro w h; exact ih (World.inv_exec L h e)

theorem World.inv_imported (R : Registry N XR) : (World.imported R).Inv R :=
  ⟨fun _ h => (by cases h), fun _ h => (by cases h)⟩

end classes

end TwoLayer
