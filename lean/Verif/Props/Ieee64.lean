import Verif.Proofs.IeeeRun
import Verif.Props.Rounding
import Verif.Props.Ieee

/-!
# C114: in range there is no overflow, and the accuracy bounds hold in true binary64

`F64` (binary64 with infinities, NaN and signed zeros), `Phys64`, `Produces64` are in `Spec/Ieee.lean`; `TLPar.InRange`,
`TLPar.memory`, `IRPar.InRange`, `IRPar.ConvInRange` in `Spec/Rounding.lean`.  Here the range is that of binary64: smallest
normal number `2⁻¹⁰²²`, and `2¹⁰²³`, half of the overflow threshold.
-/

set_option linter.unusedSimpArgs false
set_option linter.unusedSectionVars false

namespace TwoLayer

/-- What rounding in `F64` is: the nearest double, unless that is of size 2¹⁰²⁴ or more, then the infinity of the right
sign; never NaN. -/
theorem F64.round_spec {py : Bool} (s : Bool) (x : ℝ) :
    (|near64 x| < 2 ^ 1024 → (F64.round s x : F64 py).value = some (near64 x)) ∧
    (2 ^ 1024 ≤ |near64 x| → (F64.round s x : F64 py) = .inf (decide (x < 0))) := by
  have h0 : near64 0 = 0 := near64_zero
  constructor
  · intro h
    unfold F64.round
    by_cases hx : x = 0
    · rw [if_pos hx, F64.value_zero, hx, h0]
    rw [if_neg hx]
    by_cases h1 : near64 x = 0
    · rw [if_pos h1, F64.value_zero, h1]
    rw [if_neg h1, if_neg (not_le.mpr h)]
    rfl
  · intro h
    have h1 : near64 x ≠ 0 := by
      intro h1
      rw [h1, abs_zero] at h
      exact absurd h (not_le.mpr (by positivity))
    have hx : x ≠ 0 := by rintro rfl; exact h1 h0
    unfold F64.round
    rw [if_neg hx, if_neg h1, if_pos h]

section
variable {N : Type} [Fintype N] [DecidableEq N] {py : Bool} {R : Registry N (F64 py)}

/-- **C114** (two-layer).  Linear model, positive parameters, a step that resolves both layers, all sizes in the normal range
of binary64.  For a run of any length whose forcing stays within `±l K`, nothing overflows and nothing is NaN, and the three
reported series differ from the exact solution of the discrete equations by the bounds of C67 with `u = 2⁻⁵³`. -/
theorem C114_two_layer (D : R.Dimensional) {K : ℝ} {m : TLM N (F64 py)} (hm : TLM.Reachable R m) {p : TLPar}
    (hp : m.Phys64 R p) (hpos : p.Pos) (hres : p.Resolved) (ha : p.a = 0) (hin : p.InRange K (2⁻¹ ^ 1022) (2 ^ 1023))
    (hK : 0 ≤ K) (hκ : 48 * 2⁻¹ ^ 53 * p.memory ≤ 1) {d : DArg N (F64 py)} {n : ℕ} (hn : n ≠ 0) {F : ℕ → ℝ}
    (hd : IsForcing64 R d n F) (hF : ∀ i < n, |F i| ≤ p.l * K) {T TD U : ℕ → ℝ} (hex : TLEq p n F T TD U) :
    ∃ T' TD' U', TLM.Produces64 R m d n T' TD' U' ∧ ∀ i < n,
      |T' i - T i| ≤ 48 * 2⁻¹ ^ 53 * K * ((p.C + p.e * p.D) / (p.dt * p.l)) ∧
      |TD' i - TD i| ≤ 48 * 2⁻¹ ^ 53 * K * p.memory ∧
      |U' i - U i| ≤ 2⁻¹ ^ 53 * (32 + 96 * p.memory) * (K * (p.C + p.D) / p.dt) := by
  refine ⟨_, _, _, TLM.produces64 (TLM.Reachable.coherent R D hm) hp hpos hres ha hin hK hκ hn hd hF, fun i hi => ?_⟩
  obtain ⟨e1, e2, e3⟩ := hex.unique hpos.ok i hi
  rw [e1, e2, e3]
  have hr := double_accurate (2 ^ 1023)
  obtain ⟨h1, h2⟩ := TLPar.fsol_err hr (by positivity) (by norm_num) hpos hres ha hin hK hκ hF i hi.le
  exact ⟨h1, h2, TLPar.fsol_uptake hr (by positivity) (by norm_num) hpos hres ha hin hK hκ hF i hi.le⟩

theorem IsSeries64.congr {l : List (F64 py)} {n : ℕ} {f g : ℕ → ℝ} (h : IsSeries64 l n f) (hfg : ∀ i < n, f i = g i) :
    IsSeries64 l n g := ⟨h.1, fun i hi => by rw [← hfg i (h.1 ▸ hi)]; exact h.2 i hi⟩

/-- **C114** (two-layer: the unbounded arithmetic tells the truth).  Under the hypotheses of `C114_two_layer`, a run in
binary64 reports exactly the numbers that the same run reports in the arithmetic `FR double` without a largest number: every
theorem about that arithmetic is one about binary64. -/
theorem C114_two_layer_same {M : Type} [Fintype M] [DecidableEq M] {R' : Registry M (FR double)} (D : R.Dimensional)
    (D' : R'.Dimensional) {K : ℝ} {m : TLM N (F64 py)} (hm : TLM.Reachable R m) {p : TLPar} (hp : m.Phys64 R p)
    {m' : TLM M (FR double)} (hm' : TLM.Reachable R' m') (hp' : m'.FPhys R' p) (hpos : p.Pos) (hres : p.Resolved)
    (ha : p.a = 0) (hin : p.InRange K (2⁻¹ ^ 1022) (2 ^ 1023)) (hK : 0 ≤ K) (hκ : 48 * 2⁻¹ ^ 53 * p.memory ≤ 1)
    {d : DArg N (F64 py)} {d' : DArg M (FR double)} {n : ℕ} (hn : n ≠ 0) {F : ℕ → ℝ} (hd : IsForcing64 R d n F)
    (hd' : IsFForcing R' d' n F) (hF : ∀ i < n, |F i| ≤ p.l * K) {T TD U : ℕ → ℝ}
    (hrun : TLM.FProduces R' m' d' n T TD U) : TLM.Produces64 R m d n T TD U := by
  obtain ⟨x, s1, o1⟩ := hrun
  obtain ⟨y, s2, o2⟩ := TLM.fproduces (double_accurate 1).zero (TLM.Reachable.coherent R' D' hm') hp' hpos.ok hn hd'
  rw [s1] at s2; cases s2
  rw [o1] at o2
  simp only [List.cons.injEq, Prod.mk.injEq, true_and, and_true] at o2
  obtain ⟨e1, e2, e3⟩ := o2
  have inj : ∀ {f g : ℕ → ℝ}, (fseries n f : List (FR double)) = fseries n g → ∀ i < n, g i = f i := by
    intro f g h i hi
    have := congrArg (fun l => l[i]?) h
    simp only [fseries_getElem? n f i hi, fseries_getElem? n g i hi, Option.some.injEq] at this
    exact (XR.fin.inj this).symm
  obtain ⟨z, a, b, c, s3, o3, h1, h2, h3⟩ :=
    TLM.produces64 (TLM.Reachable.coherent R D hm) hp hpos hres ha hin hK hκ hn hd hF
  exact ⟨z, a, b, c, s3, o3, h1.congr (inj e1), h2.congr (inj e2), h3.congr (inj e3)⟩

/-- **C114** (impulse response, efficacy 1, parameters in the units of the model).  All sizes in the normal range of binary64.
For a run of any length whose forcing stays within `±M`, the run succeeds, nothing overflows and nothing is NaN, and the
reported series differ from the exact response by the bounds of C67 with `u = 2⁻⁵³`. -/
theorem C114_impulse_response {M : ℝ} {m : IRM N (F64 py)} (hm : IRM.Reachable R m) {p : IRPar} (hp : m.Phys64 R p)
    (hpl : m.PlainUnits64 R) (hok : p.Ok) (hdt : 0 < p.dt) (hin : p.InRange M (2⁻¹ ^ 1022) (2 ^ 1023))
    (hci : p.ConvInRange (2⁻¹ ^ 1022) (2 ^ 1023)) (hM : 0 ≤ M) (hκ : 32 * 2⁻¹ ^ 53 * (1 + p.d2 / p.dt) ≤ 1)
    {d : DArg N (F64 py)} {n : ℕ} (hn : n ≠ 0) {F : ℕ → ℝ} (hd : IsForcing64 R d n F) (hF : ∀ i < n, |F i| ≤ M)
    {T1 T2 U : ℕ → ℝ} (hex : IREq p 1 n F T1 T2 U) :
    ∃ T1' T2' T' U', IRM.Produces64 R m d n T1' T2' T' U' ∧ ∀ i < n,
      |T1' i - T1 i| ≤ 32 * 2⁻¹ ^ 53 * (p.q1 * M) * (1 + p.d1 / p.dt) ∧
      |T2' i - T2 i| ≤ 32 * 2⁻¹ ^ 53 * (p.q2 * M) * (1 + p.d2 / p.dt) ∧
      |T' i - (T1 i + T2 i)| ≤ 32 * 2⁻¹ ^ 53 * (p.q1 * M) * (1 + p.d1 / p.dt) +
        32 * 2⁻¹ ^ 53 * (p.q2 * M) * (1 + p.d2 / p.dt) + 2 * 2⁻¹ ^ 53 * ((p.q1 + p.q2) * M) ∧
      |U' i - U i| ≤ 2⁻¹ ^ 53 * M * (59 + 32 * (p.d2 / p.dt)) := by
  refine ⟨_, _, _, _, IRM.produces64 (IRM.Reachable.coherent R hm) hp hok hpl hdt hM hci hin hκ hn hd hF, fun i hi => ?_⟩
  have he : p.e = 1 := by
    have := hp.efficacy.magIn
    rw [hpl.efficacy, Qty.magIn, if_pos rfl] at this
    exact (Option.some.inj this).symm
  obtain ⟨a, b, c⟩ := IRPar.run_err (double_accurate (2 ^ 1023)) (by positivity) (by norm_num) hok hdt hin hM hκ hF
    hex.box1 hex.box2 i hi
  exact ⟨a, b, c, IRPar.uptake_err (double_accurate (2 ^ 1023)) (by positivity) (by norm_num) (by positivity) hok he hdt hin
    hci hM hκ hF hex i hi⟩
end

/-! ## `TwoLayerModel()` in binary64 -/

/-- the reference registry over binary64: pint multiplies the magnitude by a conversion factor -/
noncomputable def U0.reg64 (py : Bool) : Registry U0 (F64 py) where
  watt := watt
  meter := meter
  ddegC := ddegC
  second := second
  year := year
  month := month
  joule := joule
  kilogram := kilogram
  compat u v := decide (dimOf dim u = dimOf dim v)
  conv u v x := x * F64.round false (scaleOf scale u / scaleOf scale v)
  root u := ∑ d, dimOf dim u d • u1 (base d)
  parse s := if s = "W/m^2" then some (u1 watt - (2 : ℚ) • u1 meter) else none
  str u := toString (u watt) ++ toString (u meter) ++ toString (u ddegC) ++ toString (u second)

/-- its dimensional analysis -/
noncomputable def U0.dimensional64 (py : Bool) : (U0.reg64 py).Dimensional where
  Dim := Fin 4
  dim := dim
  compat_iff u v := by simp [reg64]
  dim_joule := by funext e; fin_cases e <;> norm_num [reg64, dim]
  dim_year := rfl
  dim_month := rfl

section
variable {py : Bool}

theorem fits64 {x : ℝ} (h : |x| ≤ 10 ^ 100) : |x| ≤ 2 ^ 1023 := by
  refine h.trans ?_
  calc (10 : ℝ) ^ 100 ≤ 16 ^ 100 := by gcongr; norm_num
    _ = 2 ^ 400 := by rw [show (16 : ℝ) = 2 ^ 4 by norm_num, ← pow_mul]
    _ ≤ 2 ^ 1023 := pow_le_pow_right₀ (by norm_num) (by norm_num)

theorem big64 : (10 : ℝ) ^ 20 ≤ 2 ^ 1023 := by
  have := fits64 (x := 10 ^ 20) (by rw [abs_of_pos (by positivity)]; exact pow_le_pow_right₀ (by norm_num) (by norm_num))
  rwa [abs_of_pos (by positivity)] at this

theorem isNum64_self {R : Registry U0 (F64 py)} {x : F64 py} {v : ℝ} (u : Units U0) (h : x.value = some v) :
    IsNum64 R ⟨x, u⟩ u v := ⟨x, by simp [Qty.toUnit, Qty.magIn], h⟩

theorem value_dec {a b : ℕ} {y : ℝ} (h : (a : ℝ) / 10 ^ b = y) (hy : |y| ≤ 10 ^ 100) :
    (Arith.dec a b : F64 py).value = some (near64 y) := by
  show (F64.round false ((a : ℝ) / 10 ^ b)).value = _
  rw [h]
  exact F64.value_round (fits64 hy)

theorem value_nat_mul {x y : F64 py} {a b : ℕ} (hx : x.value = some (a : ℝ)) (hy : y.value = some (b : ℝ))
    (h : a * b < 2 ^ 53) : (x * y).value = some ((a * b : ℕ) : ℝ) := by
  have hb : |((a * b : ℕ) : ℝ)| ≤ 10 ^ 100 := by
    rw [abs_of_nonneg (Nat.cast_nonneg _)]
    calc ((a * b : ℕ) : ℝ) ≤ ((2 ^ 53 : ℕ) : ℝ) := by exact_mod_cast h.le
      _ ≤ _ := by norm_num
  have := F64.value_mul hx hy (by rw [← Nat.cast_mul]; exact fits64 hb)
  rw [this, ← Nat.cast_mul, show near64 ((a * b : ℕ) : ℝ) = ((a * b : ℕ) : ℝ) from double_int h]

theorem TLPar.defaultD_inRange64 : TLPar.defaultD.InRange 81 (2⁻¹ ^ 1022) (2 ^ 1023) :=
  fun x hx => ⟨(TLPar.defaultD_inRange x hx).1, (TLPar.defaultD_inRange x hx).2.trans big64⟩

theorem U0.reg64_default : ∃ m, TLM.init (U0.reg64 py) (TLM.defaultArgs (U0.reg64 py)) = .ok m ∧
    m.Phys64 (U0.reg64 py) TLPar.defaultD := by
  have nat : ∀ {n : ℕ}, n < 2 ^ 53 → (Arith.ofNat n : F64 py).value = some (n : ℝ) := fun h => F64.value_ofNat_small h
  have hy : ((Qty.mk (Arith.ofNat 1) (U0.reg64 py).yr).magIn (U0.reg64 py) (U0.reg64 py).s).value = some 31557600 := by
    have hne : (U0.reg64 py).yr ≠ (U0.reg64 py).s := by
      intro h
      have := congrFun h U0.year
      simp [Registry.yr, Registry.s, U0.reg64, u1] at this
    simp only [Qty.magIn, if_neg hne]
    show ((Arith.ofNat 1 : F64 py) * F64.round false (scaleOf U0.scale (u1 U0.year) / scaleOf U0.scale (u1 U0.second))).value = _
    rw [scaleOf_u1, scaleOf_u1]
    have e1 : (U0.scale U0.year / U0.scale U0.second : ℝ) = ((31557600 : ℕ) : ℝ) := by norm_num [U0.scale]
    rw [e1]
    have := value_nat_mul (nat (n := 1) (by norm_num)) (nat (n := 31557600) (by norm_num)) (by norm_num)
    norm_num at this
    exact this
  have hu : (U0.reg64 py).m + (u1 (U0.reg64 py).kilogram - (3 : ℚ) • u1 (U0.reg64 py).meter) +
      (u1 (U0.reg64 py).joule - u1 (U0.reg64 py).ddegC - u1 (U0.reg64 py).kilogram) = (U0.reg64 py).jm2c := by
    simp only [Registry.jm2c, Registry.m]
    funext x; simp; ring
  have heat : ∀ {k : ℕ}, k * 1000 * 4181 < 2 ^ 53 → k < 2 ^ 53 → k * 1000 < 2 ^ 53 →
      IsNum64 (U0.reg64 py) (TLM.heatCapacityOf (U0.reg64 py) ⟨Arith.ofNat k, (U0.reg64 py).m⟩) (U0.reg64 py).jm2c
        ((k * 1000 * 4181 : ℕ) : ℝ) := by
    intro k h1 h2 h3
    simp only [TLM.heatCapacityOf, Registry.densityWater, Registry.heatCapacityWater, Qty.mul, hu]
    exact isNum64_self _ (value_nat_mul (value_nat_mul (nat h2) (nat (by norm_num)) h3) (nat (by norm_num)) h1)
  refine ⟨_, TLM.init_good (U0.dimensional64 py) (Or.inl rfl) (Or.inl rfl) (Or.inl rfl) (Or.inl rfl) (Or.inl rfl)
    (Or.inl rfl) (Or.inl rfl), ⟨?_, ?_, ?_, ?_, ?_, ?_, ?_⟩⟩
  · have := heat (k := 50) (by norm_num) (by norm_num) (by norm_num)
    norm_num at this
    exact this
  · have := heat (k := 1200) (by norm_num) (by norm_num) (by norm_num)
    norm_num at this
    exact this
  · refine isNum64_self _ ?_
    have h1 := value_dec (py := py) (a := 374) (b := 2) (y := 3.74) (by norm_num) (by rw [abs_of_pos] <;> norm_num)
    have h2 := nat (n := 3) (by norm_num)
    have h3 : |double.fl 3.74 / 3| ≤ 10 ^ 100 := by
      have h1 := double_close (x := 3.74) (by rw [abs_of_pos] <;> norm_num)
      rw [abs_of_pos (by norm_num : (0 : ℝ) < 3.74), abs_le] at h1
      rw [abs_le]
      generalize double.fl 3.74 = y at *
      constructor <;> norm_num at * <;> linarith [h1.1, h1.2]
    have := F64.value_div h1 h2 (by norm_num) (fits64 (by rw [Nat.cast_ofNat]; exact h3))
    rw [Nat.cast_ofNat] at this
    exact this
  · refine isNum64_self _ ?_
    have := value_dec (py := py) (a := 0) (b := 1) (y := 0) (by norm_num) (by rw [abs_zero]; positivity)
    rwa [near64_zero] at this
  · refine isNum64_self _ ?_
    have := value_dec (py := py) (a := 10) (b := 1) (y := 1) (by norm_num) (by rw [abs_one]; norm_num)
    rwa [near64_one] at this
  · exact isNum64_self _ (value_dec (py := py) (a := 8) (b := 1) (y := 0.8) (by norm_num) (by rw [abs_of_pos] <;> norm_num))
  · exact isNum64_self _ hy

/-- **C114** (`TwoLayerModel()` in binary64).  Whatever the length of the run, under any forcing within ±100 W/m² nothing
overflows and nothing is NaN, the reported temperatures are within 10⁻⁹ K, and the heat uptake within 10⁻⁷ W/m², of the exact
solution of the discrete equations with the parameters the object holds. -/
theorem C114_default {m : TLM U0 (F64 py)} (hm : TLM.init (U0.reg64 py) (TLM.defaultArgs (U0.reg64 py)) = .ok m) {n : ℕ}
    (hn : n ≠ 0) {d : DArg U0 (F64 py)} {F : ℕ → ℝ} (hd : IsForcing64 (U0.reg64 py) d n F) (hF : ∀ i < n, |F i| ≤ 100)
    {T TD U : ℕ → ℝ} (hex : TLEq TLPar.defaultD n F T TD U) :
    ∃ T' TD' U', TLM.Produces64 (U0.reg64 py) m d n T' TD' U' ∧ ∀ i < n,
      |T' i - T i| ≤ 1 / 10 ^ 9 ∧ |TD' i - TD i| ≤ 1 / 10 ^ 9 ∧ |U' i - U i| ≤ 1 / 10 ^ 7 := by
  obtain ⟨m', h1, h2⟩ := U0.reg64_default (py := py)
  rw [h1] at hm; cases hm
  have hmem := TLPar.defaultD_memory
  have hfor := TLPar.defaultD_forget
  obtain ⟨l1, l2⟩ := TLPar.defaultD_l
  obtain ⟨T', TD', U', hrun, hb⟩ := C114_two_layer (U0.dimensional64 py) ⟨_, _, [], h1, rfl⟩ h2 TLPar.defaultD_pos
    TLPar.defaultD_resolved rfl TLPar.defaultD_inRange64 (by norm_num)
    (by norm_num; linarith) hn hd (fun i hi => (hF i hi).trans (by norm_num at *; linarith)) hex
  refine ⟨T', TD', U', hrun, fun i hi => ?_⟩
  obtain ⟨b1, b2, b3⟩ := hb i hi
  refine ⟨b1.trans ?_, b2.trans ?_, b3.trans ?_⟩
  · norm_num at *; linarith
  · norm_num at *; linarith
  · show 2⁻¹ ^ 53 * (32 + 96 * TLPar.defaultD.memory) * (81 * (209050000 + 5017200000) / 31557600) ≤ _
    norm_num at *; linarith

theorem isForcing64_nums {R : Registry U0 (F64 py)} (n : ℕ) (F : ℕ → ℝ) :
    IsForcing64 R (.qty ⟨1, (List.range n).map fun i => F64.num (F i)⟩ R.wm2) n F := by
  refine ⟨_, _, rfl, by simp, fun i hi => ?_⟩
  simp only [List.getElem_map, List.getElem_range]
  exact ⟨isNum64_self _ rfl, rfl⟩

/-- Concrete case: a thousand years of alternating ±50 W/m². -/
example : ∃ m T TD U, TLM.init (U0.reg64 py) (TLM.defaultArgs (U0.reg64 py)) = .ok m ∧
    IsForcing64 (U0.reg64 py) (.qty ⟨1, (List.range 1000).map fun i => F64.num (50 * (-1) ^ i)⟩ (U0.reg64 py).wm2) 1000
      (fun i => 50 * (-1) ^ i) ∧
    (∀ i < 1000, |(50 * (-1) ^ i : ℝ)| ≤ 100) ∧ TLEq TLPar.defaultD 1000 (fun i => 50 * (-1) ^ i) T TD U := by
  obtain ⟨m, h1, h2⟩ := U0.reg64_default (py := py)
  have hF : ∀ i : ℕ, |(50 * (-1) ^ i : ℝ)| ≤ 100 := fun i => by rw [abs_mul, abs_pow]; norm_num
  exact ⟨m, _, _, _, h1, isForcing64_nums _ _, fun i _ => hF i, TLPar.sol_eq TLPar.defaultD_pos.ok 1000 _⟩

/-- Concrete case of C113: `TwoLayerModel()` accepts a forcing with an infinity, its run succeeds, and that forcing is not
finite at the time of the infinity. -/
example : ∃ m m', TLM.Reachable (U0.reg64 py) m ∧
    TLM.simulate (U0.reg64 py) (.qty ⟨1, [F64.num 1, F64.inf false, F64.num 2, F64.num 3]⟩ (U0.reg64 py).wm2) m = (m', .ok ()) ∧
    ¬ FiniteForcing (U0.reg64 py) (.qty ⟨1, [F64.num 1, F64.inf false, F64.num 2, F64.num 3]⟩ (U0.reg64 py).wm2) 1 := by
  obtain ⟨m, h1, h2⟩ := U0.reg64_default (py := py)
  obtain ⟨m', hm'⟩ := TLM.simulate_succeeds (U0.reg64 py) m (d := .qty ⟨1, [F64.num 1, F64.inf false, F64.num 2, F64.num 3]⟩
    (U0.reg64 py).wm2) (vals := [F64.num 1, F64.inf false, F64.num 2, F64.num 3]) (u := (U0.reg64 py).wm2)
    ⟨rfl, Or.inl rfl, rfl⟩
  refine ⟨m, m', ⟨_, _, [], h1, rfl⟩, hm', ?_⟩
  rintro ⟨vals, u, x, hd, hx, y, hy, v, hv⟩
  cases hd
  simp at hx
  subst hx
  simp [Qty.toUnit, Qty.magIn] at hy
  subst hy
  cases hv

/-! ## `ImpulseResponseModel()` in binary64 -/

theorem IRPar.defaultD_inRange64 : IRPar.defaultD.InRange 100 (2⁻¹ ^ 1022) (2 ^ 1023) :=
  ⟨IRPar.defaultD_inRange.1, IRPar.defaultD_inRange.2.1.trans big64,
    fun x hx => ⟨(IRPar.defaultD_inRange.2.2 x hx).1, (IRPar.defaultD_inRange.2.2 x hx).2.trans big64⟩⟩

theorem IRPar.defaultD_conv64 : IRPar.defaultD.ConvInRange (2⁻¹ ^ 1022) (2 ^ 1023) :=
  ⟨IRPar.defaultD_conv.1.trans big64,
    fun x hx => ⟨(IRPar.defaultD_conv.2 x hx).1, (IRPar.defaultD_conv.2 x hx).2.trans big64⟩⟩

theorem U0.reg64_default_ir : ∃ m, IRM.init (U0.reg64 py) (IRM.defaultArgs (U0.reg64 py)) = .ok m ∧
    m.Phys64 (U0.reg64 py) IRPar.defaultD ∧ m.PlainUnits64 (U0.reg64 py) := by
  have nine : near64 9 = 9 := by have := double_int (n := 9) (by norm_num); exact_mod_cast this
  have fourh : near64 400 = 400 := by have := double_int (n := 400) (by norm_num); exact_mod_cast this
  have e1 := value_dec (py := py) (a := 3) (b := 1) (y := 0.3) (by norm_num) (by rw [abs_of_pos] <;> norm_num)
  have e2 := value_dec (py := py) (a := 4) (b := 1) (y := 0.4) (by norm_num) (by rw [abs_of_pos] <;> norm_num)
  have e3 := value_dec (py := py) (a := 90) (b := 1) (y := 9) (by norm_num) (by rw [abs_of_pos] <;> norm_num)
  have e4 := value_dec (py := py) (a := 4000) (b := 1) (y := 400) (by norm_num) (by rw [abs_of_pos] <;> norm_num)
  rw [nine] at e3
  rw [fourh] at e4
  have e5 : (Arith.dec 10 1 : F64 py) = F64.num 1 := by
    show F64.round false (((10 : ℕ) : ℝ) / 10 ^ 1) = _
    have : ((10 : ℕ) : ℝ) / 10 ^ 1 = 1 := by norm_num
    rw [this]
    unfold F64.round
    rw [if_neg one_ne_zero, near64_one, if_neg one_ne_zero, if_neg]
    rw [abs_one, not_le]
    exact one_lt_pow₀ (by norm_num) (by norm_num)
  have e6 : (Arith.ofNat 1 / Arith.ofNat 12 : F64 py).value = some (double.fl (1 / 12)) := by
    have := F64.value_div (F64.value_ofNat_small (py := py) (n := 1) (by norm_num))
      (F64.value_ofNat_small (py := py) (n := 12) (by norm_num)) (by norm_num)
      (fits64 (by rw [abs_of_pos] <;> norm_num))
    rw [Nat.cast_one, Nat.cast_ofNat] at this
    exact this
  refine ⟨IRM.built (U0.reg64 py) ⟨Arith.dec 3 1, (U0.reg64 py).cwm2⟩ ⟨Arith.dec 4 1, (U0.reg64 py).cwm2⟩
    ⟨Arith.dec 90 1, (U0.reg64 py).yr⟩ ⟨Arith.dec 4000 1, (U0.reg64 py).yr⟩ ⟨Arith.dec 10 1, (U0.reg64 py).one⟩
    ⟨Arith.ofNat 1 / Arith.ofNat 12, (U0.reg64 py).yr⟩, ?_, ?_, ?_⟩
  · have hg : (Qty.mk (Arith.dec 90 1 : F64 py) (U0.reg64 py).yr).ge (U0.reg64 py) ⟨Arith.dec 4000 1, (U0.reg64 py).yr⟩ =
        .ok false := by
      simp only [Qty.ge, if_true]
      have : Arith.le (Arith.dec 4000 1 : F64 py) (Arith.dec 90 1) = false := by
        rw [F64.le_value e4 e3]; norm_num
      rw [this]
    refine (IRM.init_good (Or.inl rfl) (Or.inl rfl) (Or.inl rfl) (Or.inl rfl) (Or.inl rfl) (Or.inl rfl)).trans ?_
    rw [hg]
  · exact ⟨isNum64_self _ e1, isNum64_self _ e2, isNum64_self _ e3, isNum64_self _ e4,
      isNum64_self _ (by rw [e5]; rfl), isNum64_self _ e6⟩
  · exact ⟨rfl, rfl, rfl, rfl, by show Qty.mk _ _ = _; rw [e5]⟩

/-- **C114** (`ImpulseResponseModel()` in binary64).  Whatever the length of the run, under any forcing within ±100 W/m² the
run succeeds, nothing overflows and nothing is NaN, the reported temperatures are within 10⁻⁹ K and the heat uptake within
10⁻⁸ W/m² of the exact response with the parameters the object holds. -/
theorem C114_default_impulse_response {m : IRM U0 (F64 py)}
    (hm : IRM.init (U0.reg64 py) (IRM.defaultArgs (U0.reg64 py)) = .ok m) {n : ℕ} (hn : n ≠ 0) {d : DArg U0 (F64 py)}
    {F : ℕ → ℝ} (hd : IsForcing64 (U0.reg64 py) d n F) (hF : ∀ i < n, |F i| ≤ 100) {T1 T2 U : ℕ → ℝ}
    (hex : IREq IRPar.defaultD 1 n F T1 T2 U) :
    ∃ T1' T2' T' U', IRM.Produces64 (U0.reg64 py) m d n T1' T2' T' U' ∧ ∀ i < n,
      |T1' i - T1 i| ≤ 1 / 10 ^ 9 ∧ |T2' i - T2 i| ≤ 1 / 10 ^ 9 ∧ |T' i - (T1 i + T2 i)| ≤ 1 / 10 ^ 9 ∧
      |U' i - U i| ≤ 1 / 10 ^ 8 := by
  obtain ⟨m', h1, h2, h3⟩ := U0.reg64_default_ir (py := py)
  rw [h1] at hm; cases hm
  obtain ⟨⟨a1, a2⟩, ⟨b1, b2⟩, ⟨c1, c2⟩⟩ := IRPar.defaultD_bounds
  norm_num only at a1 a2 b1 b2 c1 c2
  have hdt : 0 < IRPar.defaultD.dt := by linarith
  have ed1 : IRPar.defaultD.d1 = 9 := rfl
  have ed2 : IRPar.defaultD.d2 = 400 := rfl
  have x1 : IRPar.defaultD.d1 / IRPar.defaultD.dt ≤ 110 := by rw [ed1, div_le_iff₀ hdt]; linarith
  have x2 : IRPar.defaultD.d2 / IRPar.defaultD.dt ≤ 4900 := by rw [ed2, div_le_iff₀ hdt]; linarith
  have y1 : 0 ≤ IRPar.defaultD.d1 / IRPar.defaultD.dt := by rw [ed1]; positivity
  have y2 : 0 ≤ IRPar.defaultD.d2 / IRPar.defaultD.dt := by rw [ed2]; positivity
  have hκ : 32 * (2⁻¹ : ℝ) ^ 53 * (1 + IRPar.defaultD.d2 / IRPar.defaultD.dt) ≤ 1 := by norm_num; linarith
  obtain ⟨S1, S2, S, U', hrun, hb⟩ := C114_impulse_response ⟨_, _, [], h1, rfl⟩ h2 h3 IRPar.defaultD_ok hdt
    IRPar.defaultD_inRange64 IRPar.defaultD_conv64 (by norm_num) hκ hn hd hF hex
  refine ⟨S1, S2, S, U', hrun, fun i hi => ?_⟩
  obtain ⟨d1, d2, d3, d4⟩ := hb i hi
  have k1 : 32 * (2⁻¹ : ℝ) ^ 53 * (IRPar.defaultD.q1 * 100) * (1 + IRPar.defaultD.d1 / IRPar.defaultD.dt) ≤ 1 / 10 ^ 10 := by
    calc _ ≤ 32 * (2⁻¹ : ℝ) ^ 53 * (301 / 1000 * 100) * (1 + 110) := by gcongr
      _ ≤ _ := by norm_num
  have k2 : 32 * (2⁻¹ : ℝ) ^ 53 * (IRPar.defaultD.q2 * 100) * (1 + IRPar.defaultD.d2 / IRPar.defaultD.dt) ≤ 8 / 10 ^ 10 := by
    calc _ ≤ 32 * (2⁻¹ : ℝ) ^ 53 * (401 / 1000 * 100) * (1 + 4900) := by gcongr
      _ ≤ _ := by norm_num
  have k3 : 2 * (2⁻¹ : ℝ) ^ 53 * ((IRPar.defaultD.q1 + IRPar.defaultD.q2) * 100) ≤ 1 / 10 ^ 12 := by
    calc _ ≤ 2 * (2⁻¹ : ℝ) ^ 53 * ((301 / 1000 + 401 / 1000) * 100) := by gcongr
      _ ≤ _ := by norm_num
  have k4 : (2⁻¹ : ℝ) ^ 53 * 100 * (59 + 32 * (IRPar.defaultD.d2 / IRPar.defaultD.dt)) ≤ 1 / 10 ^ 8 := by
    calc _ ≤ (2⁻¹ : ℝ) ^ 53 * 100 * (59 + 32 * 4900) := by gcongr
      _ ≤ _ := by norm_num
  exact ⟨(d1.trans k1).trans (by norm_num), (d2.trans k2).trans (by norm_num),
    (d3.trans (add_le_add (add_le_add k1 k2) k3)).trans (by norm_num), d4.trans k4⟩

/-- Concrete case: a thousand months of a growing forcing; the object exists. -/
example : ∃ m T1 T2 U, IRM.init (U0.reg64 py) (IRM.defaultArgs (U0.reg64 py)) = .ok m ∧
    IsForcing64 (U0.reg64 py) (.qty ⟨1, (List.range 1000).map fun i : ℕ => F64.num ((i : ℝ) / 100)⟩ (U0.reg64 py).wm2) 1000
      (fun i => (i : ℝ) / 100) ∧
    (∀ i < 1000, |((i : ℕ) : ℝ) / 100| ≤ 100) ∧ IREq IRPar.defaultD 1 1000 (fun i => (i : ℝ) / 100) T1 T2 U := by
  obtain ⟨m, h1, -⟩ := U0.reg64_default_ir (py := py)
  have hf : ∀ n, IsForcing64 (U0.reg64 py)
      (.qty ⟨1, (List.range n).map fun i : ℕ => F64.num ((i : ℝ) / 100)⟩ (U0.reg64 py).wm2) n (fun i => (i : ℝ) / 100) :=
    fun n => isForcing64_nums n (fun i => (i : ℝ) / 100)
  refine ⟨m, _, _, _, h1, hf 1000, fun i hi => ?_,
    IRPar.sol_eq IRPar.defaultD 1 1000 (fun i => (i : ℝ) / 100)⟩
  have : (i : ℝ) < 1000 := by exact_mod_cast hi
  have h0 : (0 : ℝ) ≤ i := Nat.cast_nonneg i
  rw [abs_of_nonneg (by positivity)]
  linarith
end
end TwoLayer
