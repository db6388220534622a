import Verif.Proofs.ExactIR
import Verif.Spec.RefRegistry

/-! # When construction succeeds, and the default objects -/

set_option linter.unusedSimpArgs false
set_option linter.unusedSectionVars false

namespace TwoLayer
variable {N α : Type} [Fintype N] [DecidableEq N] [Arith α]

theorem checkQty_good {R : Registry N α} {q : Qty N α} {name : String} {u : Units N} (h : UnitOk R q.unit u) :
    checkQty R (.qty q) name u = .ok q := checkQty_ok.mpr ⟨rfl, h⟩

/-- the object built by `TwoLayerModel(...)` -/
def TLM.built (R : Registry N α) (du dl l a ef et dt : Qty N α) : TLM N α where
  du := du
  duMag := du.magIn R R.m
  hcuMag := (TLM.heatCapacityOf R du).magIn R R.jm2c
  dl := dl
  dlMag := dl.magIn R R.m
  hclMag := (TLM.heatCapacityOf R dl).magIn R R.jm2c
  lambda0 := l
  lambda0Mag := l.magIn R R.wm2c
  a := a
  aMag := a.magIn R R.wm2cc
  efficacy := ef
  efficacyMag := ef.magIn R R.one
  eta := et
  etaMag := et.magIn R R.wm2c
  core := { deltaT := dt, deltaTMag := dt.magIn R R.s, erf := .unset, erfMag := none }
  tu := [Arith.nan]
  tl := [Arith.nan]
  rndt := [Arith.nan]
  idx := none

theorem TLM.init_good {R : Registry N α} (D : R.Dimensional) {du dl l a ef et dt : Qty N α}
    (h1 : UnitOk R du.unit R.m) (h2 : UnitOk R dl.unit R.m) (h3 : UnitOk R l.unit R.wm2c)
    (h4 : UnitOk R a.unit R.wm2cc) (h5 : UnitOk R ef.unit R.one) (h6 : UnitOk R et.unit R.wm2c)
    (h7 : UnitOk R dt.unit R.s) :
    TLM.init R ⟨.qty du, .qty dl, .qty l, .qty a, .qty ef, .qty et, .qty dt⟩ =
      .ok (TLM.built R du dl l a ef et dt) := by
  simp only [TLM.init, checkQty_good h1, checkQty_good h2, checkQty_good h3, checkQty_good h4, checkQty_good h5,
    checkQty_good h6, checkQty_good h7, toUnit_ok (D.heat_ok h1), toUnit_ok (D.heat_ok h2), bind, Except.bind,
    pure, Except.pure, TLM.built]

/-- the object built by `ImpulseResponseModel(...)` -/
def IRM.built (R : Registry N α) (q1 q2 d1 d2 ef dt : Qty N α) : IRM N α where
  q1 := q1
  q1Mag := q1.magIn R R.cwm2
  q2 := q2
  q2Mag := q2.magIn R R.cwm2
  d1 := d1
  d1Mag := d1.magIn R R.yr
  d2 := d2
  d2Mag := d2.magIn R R.yr
  efficacy := ef
  efficacyMag := ef.magIn R R.one
  core := { deltaT := dt, deltaTMag := dt.magIn R R.yr, erf := .unset, erfMag := none }
  t1 := [Arith.nan]
  t2 := [Arith.nan]
  rndt := [Arith.nan]
  idx := none

theorem IRM.init_good {R : Registry N α} {q1 q2 d1 d2 ef dt : Qty N α}
    (h1 : UnitOk R q1.unit R.cwm2) (h2 : UnitOk R q2.unit R.cwm2) (h3 : UnitOk R d1.unit R.yr)
    (h4 : UnitOk R d2.unit R.yr) (h5 : UnitOk R ef.unit R.one) (h6 : UnitOk R dt.unit R.yr) :
    IRM.init R ⟨.qty q1, .qty q2, .qty d1, .qty d2, .qty ef, .qty dt⟩ =
      match d1.ge R d2 with
      | .error e => .error e
      | .ok true => .error (.value "The short-timescale must be d1")
      | .ok false => .ok (IRM.built R q1 q2 d1 d2 ef dt) := by
  simp only [IRM.init, checkQty_good h1, checkQty_good h2, checkQty_good h3, checkQty_good h4, checkQty_good h5,
    checkQty_good h6, bind, Except.bind, pure, Except.pure]
  cases d1.ge R d2 with
  | error e => rfl
  | ok b => cases b <;> rfl

/-! ## Default objects in a lawful registry -/
section
variable {R : Registry N XR} (L : R.Lawful)
include L

theorem yr_in_s : IsNum R ⟨.fin 1, R.yr⟩ R.s 31557600 := by
  refine isNum_of ((L.unitOk_iff _ _).mpr ?_) ?_
  · show L.dm (u1 R.year) = L.dm (u1 R.second)
    rw [L.dm_u1, L.dm_u1]; exact L.dim_year
  · rw [show (⟨.fin 1, R.yr⟩ : Qty N XR) = L.quant R.yr (L.sc R.yr) by simp [Registry.Lawful.quant, L.sc_ne]]
    rw [L.magIn_mk]
    · have h1 : L.sc R.yr = L.scale R.year := by simp [Registry.Lawful.sc, Registry.yr]
      have h2 : L.sc R.s = L.scale R.second := by simp [Registry.Lawful.sc, Registry.s]
      have h3 := L.scale_pos R.second
      rw [h1, h2, L.scale_year]
      congr 1; field_simp
    · show L.dm (u1 R.year) = L.dm (u1 R.second)
      rw [L.dm_u1, L.dm_u1]; exact L.dim_year

theorem mon_in_yr : IsNum R ⟨.fin 1, R.mon⟩ R.yr (1 / 12) := by
  have hd : L.dm R.mon = L.dm R.yr := by
    show L.dm (u1 R.month) = L.dm (u1 R.year)
    rw [L.dm_u1, L.dm_u1, L.dim_year]; exact L.dim_month
  refine isNum_of ((L.unitOk_iff _ _).mpr hd) ?_
  rw [show (⟨.fin 1, R.mon⟩ : Qty N XR) = L.quant R.mon (L.sc R.mon) by simp [Registry.Lawful.quant, L.sc_ne]]
  rw [L.magIn_mk _ _ _ hd]
  have h1 : L.sc R.yr = L.scale R.year := by simp [Registry.Lawful.sc, Registry.yr]
  have h2 : L.sc R.mon = L.scale R.month := by simp [Registry.Lawful.sc, Registry.mon]
  have h3 := L.scale_pos R.year
  rw [h1, h2, L.scale_month]
  congr 1; field_simp

theorem mon_in_s : IsNum R ⟨.fin 1, R.mon⟩ R.s 2629800 := by
  have hd : L.dm R.mon = L.dm R.s := by
    show L.dm (u1 R.month) = L.dm (u1 R.second)
    rw [L.dm_u1, L.dm_u1]; exact L.dim_month
  refine isNum_of ((L.unitOk_iff _ _).mpr hd) ?_
  rw [show (⟨.fin 1, R.mon⟩ : Qty N XR) = L.quant R.mon (L.sc R.mon) by simp [Registry.Lawful.quant, L.sc_ne]]
  rw [L.magIn_mk _ _ _ hd]
  have h1 : L.sc R.s = L.scale R.second := by simp [Registry.Lawful.sc, Registry.s]
  have h2 : L.sc R.mon = L.scale R.month := by simp [Registry.Lawful.sc, Registry.mon]
  have h3 := L.scale_pos R.second
  rw [h1, h2, L.scale_month, L.scale_year]
  congr 1; field_simp; norm_num

omit L in
theorem TLPar.default_ok : TLPar.default.Ok := by constructor <;> norm_num [TLPar.default]

/-- `TwoLayerModel()` succeeds, with the documented parameter values -/
theorem TLM.default_exists : ∃ m, TLM.init R (TLM.defaultArgs R) = .ok m ∧ m.Phys R TLPar.default := by
  have hy := (yr_in_s L).magIn
  have : (TLM.defaultArgs R).deltaT = .qty ⟨.fin 31557600, R.s⟩ := by
    simp only [TLM.defaultArgs, XR.ofNat_eq, Nat.cast_one]
    rw [hy]
  refine ⟨_, TLM.init_good L.toDimensional (Or.inl rfl) (Or.inl rfl) (Or.inl rfl) (Or.inl rfl) (Or.inl rfl)
    (Or.inl rfl) (Or.inl rfl), ?_⟩
  have hk : (Arith.dec 374 2 / Arith.ofNat 3 : XR) = .fin (3.74 / 3) := by
    simp only [XR.dec_eq, XR.ofNat_eq]
    rw [XR.fin_div (by norm_num)]; norm_num
  refine ⟨?_, ?_, ?_, ?_, ?_, ?_, ?_⟩
  · have := isNum_self (R := R) 50 R.m
    simpa [TLPar.default, TLM.built] using this
  · have := isNum_self (R := R) 1200 R.m
    simpa [TLPar.default, TLM.built] using this
  · show IsNum R ⟨Arith.dec 374 2 / Arith.ofNat 3, R.wm2c⟩ R.wm2c _
    rw [hk]; exact isNum_self _ _
  · show IsNum R ⟨.fin _, R.wm2cc⟩ R.wm2cc _
    simpa [TLPar.default] using isNum_self (R := R) 0 R.wm2cc
  · show IsNum R ⟨.fin _, R.one⟩ R.one _
    simpa [TLPar.default] using isNum_self (R := R) 1 R.one
  · show IsNum R ⟨.fin _, R.wm2c⟩ R.wm2c _
    have h8 : ((8 : ℕ) : ℝ) / 10 ^ 1 = 0.8 := by norm_num
    rw [h8]
    exact isNum_self (R := R) 0.8 R.wm2c
  · show IsNum R ⟨(Qty.mk (Arith.ofNat 1) R.yr).magIn R R.s, R.s⟩ R.s _
    simp only [XR.ofNat_eq, Nat.cast_one]
    rw [hy]
    exact isNum_self _ _

omit L in
theorem IRPar.default_ok : IRPar.default.Ok := by constructor <;> norm_num [IRPar.default]

/-- `ImpulseResponseModel()` succeeds, with the documented parameter values -/
theorem IRM.default_exists : ∃ m, IRM.init R (IRM.defaultArgs R) = .ok m ∧ m.Phys R IRPar.default ∧
    m.q1.unit = R.cwm2 ∧ m.q2.unit = R.cwm2 ∧ m.efficacy.unit = R.one := by
  refine ⟨IRM.built R ⟨Arith.dec 3 1, R.cwm2⟩ ⟨Arith.dec 4 1, R.cwm2⟩ ⟨Arith.dec 90 1, R.yr⟩ ⟨Arith.dec 4000 1, R.yr⟩
    ⟨Arith.dec 10 1, R.one⟩ ⟨Arith.ofNat 1 / Arith.ofNat 12, R.yr⟩, ?_, ?_, rfl, rfl, rfl⟩
  · have hg : (Qty.mk (Arith.dec 90 1) R.yr).ge R ⟨Arith.dec 4000 1, R.yr⟩ = .ok false := by
      simp [Qty.ge]; norm_num
    refine (IRM.init_good (Or.inl rfl) (Or.inl rfl) (Or.inl rfl) (Or.inl rfl) (Or.inl rfl) (Or.inl rfl)).trans ?_
    rw [hg]
  · have e1 : (Arith.dec 3 1 : XR) = .fin 0.3 := by simp; norm_num
    have e2 : (Arith.dec 4 1 : XR) = .fin 0.4 := by simp; norm_num
    have e3 : (Arith.dec 90 1 : XR) = .fin 9 := by simp; norm_num
    have e4 : (Arith.dec 4000 1 : XR) = .fin 400 := by simp; norm_num
    have e5 : (Arith.dec 10 1 : XR) = .fin 1 := by simp
    have e6 : (Arith.ofNat 1 / Arith.ofNat 12 : XR) = .fin (1 / 12) := by
      simp only [XR.ofNat_eq]; rw [XR.fin_div (by norm_num)]; norm_num
    rw [e1, e2, e3, e4, e5, e6]
    exact ⟨isNum_self _ _, isNum_self _ _, isNum_self _ _, isNum_self _ _, isNum_self _ _, isNum_self _ _⟩

omit L in
/-- the drivers `[1, 2, 3] W/m²` -/
def exDrivers (R : Registry N XR) : DArg N XR := .qty ⟨1, [.fin 1, .fin 2, .fin 3]⟩ R.wm2

omit L in
theorem exDrivers_forcing : IsForcing R (exDrivers R) 3 (fun i => (i : ℝ) + 1) := by
  refine ⟨_, _, rfl, rfl, ?_⟩
  intro i hi
  simp only [List.length_cons, List.length_nil] at hi
  interval_cases i
  · simpa using isNum_self (R := R) 1 R.wm2
  · have := isNum_self (R := R) 2 R.wm2
    norm_num; exact this
  · have := isNum_self (R := R) 3 R.wm2
    norm_num; exact this

/-- a default two-layer run -/
theorem TLM.default_run : ∃ m, TLM.Reachable R m ∧ m.Phys R TLPar.default ∧
    TLM.Produces R m (exDrivers R) 3 (TLPar.default.T fun i => i + 1) (TLPar.default.TD fun i => i + 1)
      (TLPar.default.U fun i => i + 1) := by
  obtain ⟨m, h1, h2⟩ := TLM.default_exists L
  exact ⟨m, ⟨_, m, [], h1, rfl⟩, h2,
    TLM.produces_sol L (TLM.init_coherent R h1) h2 TLPar.default_ok (by norm_num) exDrivers_forcing⟩

/-- a default impulse response run -/
theorem IRM.default_run : ∃ m, IRM.Reachable R m ∧ m.Phys R IRPar.default ∧
    m.q1.unit = R.cwm2 ∧ m.q2.unit = R.cwm2 ∧ m.efficacy.unit = R.one ∧
    IRM.Produces R m (exDrivers R) 3 (IRPar.default.T1 fun i => i + 1) (IRPar.default.T2 fun i => i + 1)
      (IRPar.default.U 1 fun i => i + 1) := by
  obtain ⟨m, h1, h2, h3, h4, h5⟩ := IRM.default_exists L
  refine ⟨m, ⟨_, m, [], h1, rfl⟩, h2, h3, h4, h5,
    IRM.produces_sol L (IRM.init_coherent R h1) h2 IRPar.default_ok ?_ (by norm_num) exDrivers_forcing (Or.inl (Or.inl rfl))⟩
  rw [h3]; exact isNum_self _ _
/-- every set of real parameters is the parameters of some constructed object, in the model's units -/
theorem TLM.exists_phys (p : TLPar) : ∃ m, TLM.Reachable R m ∧ m.Phys R p := by
  refine ⟨_, ⟨_, _, [], TLM.init_good L.toDimensional (du := ⟨.fin (p.C / (1000 * 4181)), R.m⟩)
    (dl := ⟨.fin (p.D / (1000 * 4181)), R.m⟩) (l := ⟨.fin p.l, R.wm2c⟩) (a := ⟨.fin p.a, R.wm2cc⟩)
    (ef := ⟨.fin p.e, R.one⟩) (et := ⟨.fin p.h, R.wm2c⟩) (dt := ⟨.fin p.dt, R.s⟩) (Or.inl rfl) (Or.inl rfl)
    (Or.inl rfl) (Or.inl rfl) (Or.inl rfl) (Or.inl rfl) (Or.inl rfl), rfl⟩, ?_⟩
  exact ⟨isNum_self _ _, isNum_self _ _, isNum_self _ _, isNum_self _ _, isNum_self _ _, isNum_self _ _,
    isNum_self _ _⟩

omit L in
/-- every list of real numbers is a driver series in W/m² -/
theorem forcing_exists (n : ℕ) (F : ℕ → ℝ) : IsForcing R (.qty ⟨1, series n F⟩ R.wm2) n F := by
  refine ⟨_, _, rfl, series_length n F, ?_⟩
  intro i hi
  rw [series_length] at hi
  have : (series n F)[i]'(by rw [series_length]; exact hi) = .fin (F i) := by simp [series]
  rw [this]; exact isNum_self _ _

/-- every solution of the difference equations is produced by some object -/
theorem TLM.any_run (p : TLPar) (hok : p.Ok) {n : ℕ} (hn : n ≠ 0) (F : ℕ → ℝ) : ∃ m, TLM.Reachable R m ∧ m.Phys R p ∧
    TLM.Produces R m (.qty ⟨1, series n F⟩ R.wm2) n (p.T F) (p.TD F) (p.U F) := by
  obtain ⟨m, h1, h2⟩ := TLM.exists_phys L p
  exact ⟨m, h1, h2, TLM.produces_sol L (TLM.Reachable.coherent R L.toDimensional h1) h2 hok hn (forcing_exists n F)⟩

/-- every physical set of real parameters is the parameters of some constructed object, in the model's units -/
theorem IRM.exists_phys (p : IRPar) (hd : p.d1 < p.d2) : ∃ m, IRM.Reachable R m ∧ m.Phys R p ∧
    m.q1.unit = R.cwm2 ∧ m.q2.unit = R.cwm2 ∧ m.efficacy.unit = R.one := by
  have hg : (Qty.mk (XR.fin p.d1) R.yr).ge R ⟨.fin p.d2, R.yr⟩ = .ok false := by
    simp [Qty.ge, hd]
  have hi := IRM.init_good (R := R) (q1 := ⟨.fin p.q1, R.cwm2⟩) (q2 := ⟨.fin p.q2, R.cwm2⟩) (d1 := ⟨.fin p.d1, R.yr⟩)
    (d2 := ⟨.fin p.d2, R.yr⟩) (ef := ⟨.fin p.e, R.one⟩) (dt := ⟨.fin p.dt, R.yr⟩)
    (Or.inl rfl) (Or.inl rfl) (Or.inl rfl) (Or.inl rfl) (Or.inl rfl) (Or.inl rfl)
  rw [hg] at hi
  refine ⟨_, ⟨_, _, [], hi, rfl⟩, ?_, rfl, rfl, rfl⟩
  exact ⟨isNum_self _ _, isNum_self _ _, isNum_self _ _, isNum_self _ _, isNum_self _ _, isNum_self _ _⟩

theorem IRM.any_run (p : IRPar) (hok : p.Ok) {n : ℕ} (hn : n ≠ 0) (F : ℕ → ℝ) : ∃ m, IRM.Reachable R m ∧
    m.Phys R p ∧ m.q1.unit = R.cwm2 ∧ m.q2.unit = R.cwm2 ∧ m.efficacy.unit = R.one ∧
    IRM.Produces R m (.qty ⟨1, series n F⟩ R.wm2) n (p.T1 F) (p.T2 F) (p.U 1 F) := by
  obtain ⟨m, h1, h2, h3, h4, h5⟩ := IRM.exists_phys L p hok.d2
  refine ⟨m, h1, h2, h3, h4, h5, IRM.produces_sol L (IRM.Reachable.coherent R h1) h2 hok ?_ hn (forcing_exists n F)
    (Or.inl (Or.inr ?_))⟩
  · rw [h3]; exact isNum_self _ _
  · rw [h4, h5]; simp [Registry.one]
end
end TwoLayer
