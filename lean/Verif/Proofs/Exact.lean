import Verif.Proofs.Convert
import Verif.Proofs.Simulate
import Verif.Spec.Equations

/-! # Exact arithmetic: a run is the solution of the difference equations -/

set_option linter.unusedSimpArgs false
set_option linter.unusedSectionVars false

namespace TwoLayer
variable {N : Type} [Fintype N] [DecidableEq N] {R : Registry N XR}

/-! ## Reading quantities -/

theorem IsNum.unitOk {q : Qty N XR} {u : Units N} {x : ℝ} (h : IsNum R q u x) : UnitOk R q.unit u := by
  unfold IsNum Qty.toUnit at h
  split at h
  · next h' => exact h'
  · cases h

theorem IsNum.magIn {q : Qty N XR} {u : Units N} {x : ℝ} (h : IsNum R q u x) : q.magIn R u = .fin x := by
  have h2 := h
  unfold IsNum at h2
  rw [toUnit_ok h.unitOk] at h2
  injection h2 with h3
  exact congrArg Qty.mag h3

theorem isNum_of {q : Qty N XR} {u : Units N} {x : ℝ} (h1 : UnitOk R q.unit u) (h2 : q.magIn R u = .fin x) :
    IsNum R q u x := by
  unfold IsNum
  rw [toUnit_ok h1, h2]

theorem isNum_self (x : ℝ) (u : Units N) : IsNum R ⟨.fin x, u⟩ u x :=
  isNum_of (Or.inl rfl) (by simp [Qty.magIn])

theorem IsNum.inj {q : Qty N XR} {u : Units N} {x y : ℝ} (h : IsNum R q u x) (h' : IsNum R q u y) : x = y := by
  have := h.magIn; rw [h'.magIn] at this; exact (XR.fin_inj.mp this).symm

namespace Registry.Lawful
variable (L : R.Lawful)

theorem isNum_iff {q : Qty N XR} {u : Units N} {x : ℝ} :
    IsNum R q u x ↔ q = L.quant q.unit (x * L.sc u) ∧ L.dm q.unit = L.dm u := by
  constructor
  · intro h
    have hd := (L.unitOk_iff _ _).mp h.unitOk
    refine ⟨?_, hd⟩
    have hm := h.magIn
    cases hq : q.mag with
    | nan =>
      unfold Qty.magIn at hm
      split at hm
      · rw [hq] at hm; cases hm
      · rw [hq, L.conv_nan _ _ ((L.compat _ _).mpr hd)] at hm; cases hm
    | fin y =>
      have h1 := L.quant_self q y hq
      rw [h1, L.magIn_mk _ _ _ hd] at hm
      have h2 := XR.fin_inj.mp hm
      rw [h1, quant_unit]
      congr 1
      have := L.sc_ne u
      field_simp at h2
      linarith
  · rintro ⟨h1, h2⟩
    refine isNum_of ((L.unitOk_iff _ _).mpr h2) ?_
    rw [h1, L.magIn_mk _ _ _ h2]
    have := L.sc_ne u
    congr 1; field_simp

theorem isNum_quant {w u : Units N} {v : ℝ} (h : L.dm w = L.dm u) : IsNum R (L.quant w v) u (v / L.sc u) := by
  refine isNum_of ((L.unitOk_iff _ _).mpr h) (L.magIn_mk _ _ _ h)
end Registry.Lawful

/-! ## Series -/

theorem series_length (n : ℕ) (f : ℕ → ℝ) : (series n f).length = n := by simp [series]

theorem series_getElem? (n : ℕ) (f : ℕ → ℝ) (i : ℕ) (hi : i < n) : (series n f)[i]? = some (.fin (f i)) := by
  simp [series, hi]

theorem series_inj {n : ℕ} {f g : ℕ → ℝ} : series n f = series n g ↔ ∀ i < n, f i = g i := by
  simp only [series]
  constructor
  · intro h i hi
    have := congrArg (fun l => l[i]?) h
    simpa [hi] using this
  · intro h
    apply List.map_congr_left
    intro i hi
    rw [h i (List.mem_range.mp hi)]

theorem eq_series {n : ℕ} {f : ℕ → ℝ} {l : List XR} (hl : l.length = n)
    (h : ∀ i < n, l[i]? = some (.fin (f i))) : l = series n f := by
  apply List.ext_getElem?
  intro i
  by_cases hi : i < n
  · rw [h i hi, series_getElem? n f i hi]
  · rw [List.getElem?_eq_none (by omega), List.getElem?_eq_none (by rw [series_length]; omega)]

theorem IsForcing.good (L : R.Lawful) {d : DArg N XR} {n : ℕ} {F : ℕ → ℝ} (h : IsForcing R d n F)
    : ∃ vals u, d = .qty ⟨1, vals⟩ u ∧ vals.length = n ∧ (n ≠ 0 → GoodDrivers R d vals u) ∧
      modelF R vals u = series n F := by
  obtain ⟨vals, u, rfl, hn, hv⟩ := h
  refine ⟨vals, u, rfl, hn, ?_, ?_⟩
  · intro h0
    refine ⟨rfl, (hv 0 (by omega)).unitOk, ?_⟩
    rw [List.any_eq_false]
    intro x hx
    obtain ⟨i, hi, rfl⟩ := List.getElem_of_mem hx
    have := (L.isNum_iff.mp (hv i hi)).1
    rw [show vals[i] = (Qty.mk vals[i] u).mag from rfl, this]
    simp
  · apply eq_series (by simp [hn])
    intro i hi
    have hi' : i < vals.length := by omega
    simp only [modelF, magsIn, List.getElem?_map, List.getElem?_eq_getElem hi', Option.map_some]
    rw [(hv i hi').magIn]

/-! ## Two-layer model -/

/-- solution of the two-layer difference equations: (T, TD, U) at each index -/
noncomputable def TLPar.sol (p : TLPar) (F : ℕ → ℝ) : ℕ → ℝ × ℝ × ℝ
  | 0 => (0, 0, 0)
  | i + 1 =>
    let T := (TLPar.sol p F i).1
    let D := (TLPar.sol p F i).2.1
    let T' := T + p.dt * ((F i - (p.l - p.a * T) * T - p.e * p.h * (T - D)) / p.C)
    let D' := D + p.dt * (p.h * (T - D) / p.D)
    (T', D', p.C * (T' - T) / p.dt + p.D * (D' - D) / p.dt)

/-- upper temperature -/
noncomputable def TLPar.T (p : TLPar) (F : ℕ → ℝ) (i : ℕ) : ℝ := (p.sol F i).1
/-- lower temperature -/
noncomputable def TLPar.TD (p : TLPar) (F : ℕ → ℝ) (i : ℕ) : ℝ := (p.sol F i).2.1
/-- heat uptake -/
noncomputable def TLPar.U (p : TLPar) (F : ℕ → ℝ) (i : ℕ) : ℝ := (p.sol F i).2.2

section
variable (p : TLPar) (F : ℕ → ℝ)
@[simp] theorem TLPar.T_zero : p.T F 0 = 0 := rfl
@[simp] theorem TLPar.TD_zero : p.TD F 0 = 0 := rfl
@[simp] theorem TLPar.U_zero : p.U F 0 = 0 := rfl
theorem TLPar.T_succ (i : ℕ) : p.T F (i + 1) = p.T F i + p.dt *
    ((F i - (p.l - p.a * p.T F i) * p.T F i - p.e * p.h * (p.T F i - p.TD F i)) / p.C) := rfl
theorem TLPar.TD_succ (i : ℕ) : p.TD F (i + 1) = p.TD F i + p.dt * (p.h * (p.T F i - p.TD F i) / p.D) := rfl
theorem TLPar.U_succ (i : ℕ) : p.U F (i + 1) =
    p.C * (p.T F (i + 1) - p.T F i) / p.dt + p.D * (p.TD F (i + 1) - p.TD F i) / p.dt := rfl
end

theorem TLPar.sol_eq {p : TLPar} (hp : p.Ok) (n : ℕ) (F : ℕ → ℝ) : TLEq p n F (p.T F) (p.TD F) (p.U F) := by
  have := hp.C; have := hp.D; have := hp.dt
  refine ⟨fun _ => ⟨rfl, rfl, rfl⟩, fun i _ => ⟨?_, ?_, ?_⟩⟩
  · rw [TLPar.T_succ]; field_simp; ring
  · rw [TLPar.TD_succ]; field_simp; ring
  · rw [TLPar.U_succ]; ring

theorem TLEq.unique {p : TLPar} (hp : p.Ok) {n : ℕ} {F T TD U : ℕ → ℝ} (h : TLEq p n F T TD U) :
    ∀ i < n, T i = p.T F i ∧ TD i = p.TD F i ∧ U i = p.U F i := by
  have h1 := hp.C; have h2 := hp.D; have h3 := hp.dt
  intro i
  induction i with
  | zero => intro hi; exact h.1 hi
  | succ i ih =>
    intro hi
    obtain ⟨e1, e2, e3⟩ := h.2 i hi
    obtain ⟨hT, hD, _⟩ := ih (by omega)
    have hT' : T (i + 1) = p.T F (i + 1) := by
      rw [TLPar.T_succ, ← hT, ← hD]
      field_simp at e1 ⊢
      linarith
    have hD' : TD (i + 1) = p.TD F (i + 1) := by
      rw [TLPar.TD_succ, ← hT, ← hD]
      field_simp at e2 ⊢
      linarith
    refine ⟨hT', hD', ?_⟩
    rw [e3, TLPar.U_succ, hT', hD', hT, hD]
    ring

theorem TLEq.congr {p : TLPar} {n : ℕ} {F G T TD U T' TD' U' : ℕ → ℝ} (h : TLEq p n F T TD U)
    (hF : ∀ i, i + 1 < n → F i = G i)
    (hT : ∀ i < n, T i = T' i) (hD : ∀ i < n, TD i = TD' i) (hU : ∀ i < n, U i = U' i) :
    TLEq p n G T' TD' U' := by
  refine ⟨fun h0 => ?_, fun i hi => ?_⟩
  · rw [← hT 0 h0, ← hD 0 h0, ← hU 0 h0]; exact h.1 h0
  · rw [← hT i (by omega), ← hT (i+1) hi, ← hD i (by omega), ← hD (i+1) hi, ← hU (i+1) hi, ← hF i hi]
    exact h.2 i hi

section
variable (L : R.Lawful)
include L

theorem TLM.Phys.hcu {m : TLM N XR} {p : TLPar} (hc : m.Coherent R) (hp : m.Phys R p) : m.hcuMag = .fin p.C := by
  obtain ⟨h1, h2⟩ := L.isNum_iff.mp hp.du
  rw [hc.hcuMag, TLM.heatCapacityUpper, TLM.heatCapacityOf, h1, L.density_mk, L.heat_mk, L.mul_mk, L.mul_mk]
  rw [L.magIn_mk]
  · congr 1
    have hu : R.jm2c = R.m + Registry.Lawful.rhoU R + Registry.Lawful.cwU R := by
      simp only [Registry.jm2c, Registry.m, Registry.Lawful.rhoU, Registry.Lawful.cwU]
      funext x; simp; ring
    rw [hu, L.sc_add, L.sc_add, Registry.Lawful.rho, Registry.Lawful.cw]
    have := L.sc_ne R.m; have := L.sc_ne (Registry.Lawful.rhoU R); have := L.sc_ne (Registry.Lawful.cwU R)
    field_simp
  · have := D_heat L hc.duUnit
    exact this
where
  D_heat (L : R.Lawful) {q : Qty N XR} (h : UnitOk R q.unit R.m) :
      L.dm (q.unit + Registry.Lawful.rhoU R + Registry.Lawful.cwU R) = L.dm R.jm2c := by
    have := L.toDimensional.heat_ok h
    exact (L.unitOk_iff _ _).mp this

theorem TLM.Phys.hcl {m : TLM N XR} {p : TLPar} (hc : m.Coherent R) (hp : m.Phys R p) : m.hclMag = .fin p.D := by
  obtain ⟨h1, h2⟩ := L.isNum_iff.mp hp.dl
  rw [hc.hclMag, TLM.heatCapacityLower, TLM.heatCapacityOf, h1, L.density_mk, L.heat_mk, L.mul_mk, L.mul_mk]
  rw [L.magIn_mk]
  · congr 1
    have hu : R.jm2c = R.m + Registry.Lawful.rhoU R + Registry.Lawful.cwU R := by
      simp only [Registry.jm2c, Registry.m, Registry.Lawful.rhoU, Registry.Lawful.cwU]
      funext x; simp; ring
    rw [hu, L.sc_add, L.sc_add, Registry.Lawful.rho, Registry.Lawful.cw]
    have := L.sc_ne R.m; have := L.sc_ne (Registry.Lawful.rhoU R); have := L.sc_ne (Registry.Lawful.cwU R)
    field_simp
  · exact TLM.Phys.hcu.D_heat L hc.dlUnit

theorem TLM.seq_fin {m : TLM N XR} {p : TLPar} (hc : m.Coherent R) (hp : m.Phys R p) (hok : p.Ok) (n : ℕ)
    (F : ℕ → ℝ) : ∀ i < n, m.eng.seq (series n F) i = .ok (.fin (p.T F i), .fin (p.TD F i), .fin (p.U F i)) := by
  have e1 : m.core.deltaTMag = .fin p.dt := by rw [hc.core.dtMag]; exact hp.dt.magIn
  have e2 : m.lambda0Mag = .fin p.l := by rw [hc.lambda0Mag]; exact hp.lambda0.magIn
  have e3 : m.aMag = .fin p.a := by rw [hc.aMag]; exact hp.a.magIn
  have e4 : m.efficacyMag = .fin p.e := by rw [hc.efficacyMag]; exact hp.efficacy.magIn
  have e5 : m.etaMag = .fin p.h := by rw [hc.etaMag]; exact hp.eta.magIn
  have e6 := TLM.Phys.hcu L hc hp
  have e7 := TLM.Phys.hcl L hc hp
  intro i
  induction i with
  | zero => intro _; simp [Eng.seq]
  | succ i ih =>
    intro hi
    simp only [Eng.seq, ih (by omega), getAt, series_getElem? n F i (by omega)]
    simp only [TLM.eng, TLM.calcNextTempUpper,
      TLM.calcNextTempLower, TLM.calcNextRndt, e1, e2, e3, e4, e5, e6, e7, XR.fin_sub, XR.fin_mul, XR.fin_add,
      XR.fin_div hok.C, XR.fin_div hok.D, XR.fin_div hok.dt]
    rfl

theorem TLM.produces_sol {m : TLM N XR} {p : TLPar} (hc : m.Coherent R) (hp : m.Phys R p) (hok : p.Ok)
    {d : DArg N XR} {n : ℕ} (hn : n ≠ 0) {F : ℕ → ℝ} (hd : IsForcing R d n F) :
    TLM.Produces R m d n (p.T F) (p.TD F) (p.U F) := by
  obtain ⟨vals, u, rfl, hlen, hg, hmF⟩ := hd.good L
  obtain ⟨m', hm'⟩ := TLM.simulate_succeeds R m (hg hn)
  refine ⟨m', hm', ?_⟩
  obtain ⟨vals', u', v, hg', rfl, hI⟩ := TLM.simulate_ok hm'
  obtain ⟨h1, -⟩ := hg'
  cases h1
  rw [hmF] at hI
  have key : ∀ i < n, v.A[i]? = some (.fin (p.T F i)) ∧ v.B[i]? = some (.fin (p.TD F i)) ∧
      v.C[i]? = some (.fin (p.U F i)) := by
    intro i hi
    obtain ⟨a, b, c, h1, h2, h3, h4⟩ := hI.done i (by omega)
    rw [TLM.seq_fin L hc hp hok n F i hi] at h1
    cases h1
    exact ⟨h2, h3, h4⟩
  have lA := hI.lA; have lB := hI.lB; have lC := hI.lC
  rw [series_length] at lA lB lC
  simp only [TLM.outputs, TLM.setView]
  rw [eq_series lA fun i hi => (key i hi).1, eq_series lB fun i hi => (key i hi).2.1,
    eq_series lC fun i hi => (key i hi).2.2]

omit L in
theorem TLM.Produces.ext {m : TLM N XR} {d : DArg N XR} {n : ℕ} {T TD U T' TD' U' : ℕ → ℝ}
    (h : TLM.Produces R m d n T TD U) (h' : TLM.Produces R m d n T' TD' U') :
    ∀ i < n, T i = T' i ∧ TD i = TD' i ∧ U i = U' i := by
  obtain ⟨m1, h1, o1⟩ := h
  obtain ⟨m2, h2, o2⟩ := h'
  rw [h1] at h2
  cases h2
  rw [o1] at o2
  simp only [List.cons.injEq, Prod.mk.injEq, true_and, and_true] at o2
  obtain ⟨a, b, c⟩ := o2
  intro i hi
  exact ⟨series_inj.mp a i hi, series_inj.mp b i hi, series_inj.mp c i hi⟩

omit L in
theorem TLM.Produces.congr {m : TLM N XR} {d : DArg N XR} {n : ℕ} {T TD U T' TD' U' : ℕ → ℝ}
    (h : TLM.Produces R m d n T TD U) (hh : ∀ i < n, T i = T' i ∧ TD i = TD' i ∧ U i = U' i) :
    TLM.Produces R m d n T' TD' U' := by
  obtain ⟨m1, h1, o1⟩ := h
  refine ⟨m1, h1, ?_⟩
  rw [o1, series_inj.mpr fun i hi => (hh i hi).1, series_inj.mpr fun i hi => (hh i hi).2.1,
    series_inj.mpr fun i hi => (hh i hi).2.2]

/-- a two-layer run reports exactly the solution of the difference equations -/
theorem TLM.produces_iff {m : TLM N XR} {p : TLPar} (hc : m.Coherent R) (hp : m.Phys R p) (hok : p.Ok)
    {d : DArg N XR} {n : ℕ} (hn : n ≠ 0) {F : ℕ → ℝ} (hd : IsForcing R d n F) (T TD U : ℕ → ℝ) :
    TLM.Produces R m d n T TD U ↔ TLEq p n F T TD U := by
  have hs := TLM.produces_sol L hc hp hok hn hd
  constructor
  · intro h
    have he := hs.ext h
    exact (TLPar.sol_eq hok n F).congr (fun _ _ => rfl) (fun i hi => (he i hi).1) (fun i hi => (he i hi).2.1)
      (fun i hi => (he i hi).2.2)
  · intro h
    refine hs.congr fun i hi => ?_
    obtain ⟨a, b, c⟩ := h.unique hok i hi
    exact ⟨a.symm, b.symm, c.symm⟩

theorem TLM.produces_val {m : TLM N XR} {p : TLPar} (hc : m.Coherent R) (hp : m.Phys R p) (hok : p.Ok)
    {d : DArg N XR} {n : ℕ} {F : ℕ → ℝ} (hd : IsForcing R d n F) {T TD U : ℕ → ℝ}
    (h : TLM.Produces R m d n T TD U) : ∀ i < n, T i = p.T F i ∧ TD i = p.TD F i ∧ U i = p.U F i := by
  intro i hi
  exact ((TLM.produces_iff L hc hp hok (by omega) hd T TD U).mp h).unique hok i hi
end

end TwoLayer
