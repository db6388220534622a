import Verif.Proofs.TLFinite
import Verif.Proofs.Scaling
import Verif.Props.TwoLayer
import Verif.Props.ImpulseResponse

/-!
# C84–C87: similarity, ramps, cumulated warming, heat content

Conventions as in `Props/TwoLayer.lean` and `Props/ImpulseResponse.lean`.
-/

set_option linter.unusedSimpArgs false
set_option linter.unusedSectionVars false

namespace TwoLayer
variable {N : Type} [Fintype N] [DecidableEq N] {R : Registry N XR} (L : R.Lawful)
include L

private theorem val {m : TLM N XR} (hm : TLM.Reachable R m) {p : TLPar} (hp : m.Phys R p) (hok : p.Ok)
    {d : DArg N XR} {n : ℕ} {F : ℕ → ℝ} (hd : IsForcing R d n F) {T TD U : ℕ → ℝ}
    (h : TLM.Produces R m d n T TD U) : ∀ i < n, T i = p.T F i ∧ TD i = p.TD F i ∧ U i = p.U F i :=
  TLM.produces_val L (TLM.Reachable.coherent R L.toDimensional hm) hp hok hd h

private theorem box {m : IRM N XR} (hm : IRM.Reachable R m) {p : IRPar} (hp : m.Phys R p)
    {d : DArg N XR} {n : ℕ} {F : ℕ → ℝ} (hd : IsForcing R d n F) {T1 T2 U : ℕ → ℝ}
    (h : IRM.Produces R m d n T1 T2 U) : ∀ i < n, T1 i = p.T1 F i ∧ T2 i = p.T2 F i :=
  (IRM.boxes_val L (IRM.Reachable.coherent R hm) hp hd h).1

/-! ## C84 Similarity -/

/-- Three independent scalings: time by `k` (time step, depths), heat fluxes per kelvin by `s` (depths, `lambda0`, `eta`,
`a`, forcing), temperatures by `x` (forcing, `1/a`).  The temperatures of the scaled model are `x` times, its heat uptake
`s x` times those of the original, for all feedbacks and time steps. -/
theorem C84_two_layer {m m' : TLM N XR} (hm : TLM.Reachable R m) (hm' : TLM.Reachable R m') {p : TLPar} {k s x : ℝ}
    (hk : k ≠ 0) (hs : s ≠ 0) (hx : x ≠ 0) (hp : m.Phys R p)
    (hp' : m'.Phys R
      { C := k * s * p.C, D := k * s * p.D, l := s * p.l, a := s / x * p.a, e := p.e, h := s * p.h, dt := k * p.dt })
    {d d' : DArg N XR} {n : ℕ} {F : ℕ → ℝ} (hd : IsForcing R d n F) (hd' : IsForcing R d' n fun i => s * x * F i)
    {T TD U T' TD' U' : ℕ → ℝ} (h : TLM.Produces R m d n T TD U) (h' : TLM.Produces R m' d' n T' TD' U') :
    ∀ i < n, T' i = x * T i ∧ TD' i = x * TD i ∧ U' i = s * x * U i := by
  intro i hi
  obtain ⟨e1, e2, e3⟩ := TLM.produces_any L (TLM.Reachable.coherent R L.toDimensional hm) hp hd h i hi
  obtain ⟨e1', e2', e3'⟩ := TLM.produces_any L (TLM.Reachable.coherent R L.toDimensional hm') hp' hd' h' i hi
  by_cases hn : 1 < n
  swap
  · obtain rfl : i = 0 := by omega
    rw [e1, e2, e3, e1', e2', e3']
    simp
  have hok := TLM.produces_ok L (TLM.Reachable.coherent R L.toDimensional hm) hp hn hd h
  rw [e1, e2, e3, e1', e2', e3']
  exact TLPar.similar hk hs hx hok F i

/-- The same for the impulse response model: time (`d1`, `d2`, time step) by `k`, forcing by `s`, temperatures by `x`
(so `q1`, `q2` by `x / s`), with `q1` given in the same unit in both objects. -/
theorem C84_impulse_response {m m' : IRM N XR} (hm : IRM.Reachable R m) (hm' : IRM.Reachable R m') {p : IRPar}
    {k s x : ℝ} (hk : 0 < k) (hxs : 0 < x / s) (hp : m.Phys R p) (hok : p.Boxes)
    (hp' : m'.Phys R { q1 := p.q1 * (x / s), q2 := p.q2 * (x / s), d1 := p.d1 * k, d2 := p.d2 * k, e := p.e, dt := p.dt * k })
    (hu : m'.q1.unit = m.q1.unit)
    {d d' : DArg N XR} {n : ℕ} {F : ℕ → ℝ} (hd : IsForcing R d n F) (hd' : IsForcing R d' n fun i => s * F i)
    {T1 T2 U T1' T2' U' : ℕ → ℝ} (h : IRM.Produces R m d n T1 T2 U) (h' : IRM.Produces R m' d' n T1' T2' U') :
    ∀ i < n, T1' i = x * T1 i ∧ T2' i = x * T2 i ∧ U' i = s * U i := by
  have hs : s ≠ 0 := by rintro rfl; simp at hxs
  obtain ⟨κ, -, hκ⟩ := IRM.kappa L hp.q1
  have hκ' := hκ
  rw [← hu] at hκ'
  have hok' : IRPar.Boxes { q1 := p.q1 * (x / s), q2 := p.q2 * (x / s), d1 := p.d1 * k, d2 := p.d2 * k, e := p.e, dt := p.dt * k } :=
    ⟨mul_pos hok.q1 hxs, mul_pos hok.q2 hxs, mul_pos hok.d1 hk, mul_pos hok.d2 hk,
      fun h => hok.ne (mul_right_cancel₀ hk.ne' h), hok.e⟩
  intro i hi
  obtain ⟨a, b, c⟩ := IRM.produces_val' L (IRM.Reachable.coherent R hm) hp hok hκ hd h i hi
  obtain ⟨a', b', c'⟩ := IRM.produces_val' L (IRM.Reachable.coherent R hm') hp' hok' hκ' hd' h' i hi
  rw [a, b, c, a', b', c']
  exact ⟨boxSol_similar hk.ne' hs i, boxSol_similar hk.ne' hs i, IRPar.similar hok hk hxs κ F i⟩

omit L in
/-- Concrete case: a monthly run of a model with 12 times shallower layers, half the forcing and twice the `a`. -/
example : ∃ m m' : TLM U0 XR, TLM.Reachable U0.reg m ∧ TLM.Reachable U0.reg m' ∧
    m.Phys U0.reg { TLPar.default with a := 0.01 } ∧
    m'.Phys U0.reg
      { C := 1 / 12 * 1 * TLPar.default.C, D := 1 / 12 * 1 * TLPar.default.D, l := 1 * TLPar.default.l
        a := 1 / (1 / 2) * 0.01, e := TLPar.default.e, h := 1 * TLPar.default.h, dt := 1 / 12 * TLPar.default.dt } ∧
    ∃ d d' T TD U T' TD' U', IsForcing U0.reg d 10 (fun i => (i : ℝ)) ∧
      IsForcing U0.reg d' 10 (fun i => 1 * (1 / 2) * (i : ℝ)) ∧
      TLM.Produces U0.reg m d 10 T TD U ∧ TLM.Produces U0.reg m' d' 10 T' TD' U' := by
  obtain ⟨m, h1, h2, h3⟩ := TLM.any_run U0.lawful { TLPar.default with a := 0.01 }
    (by constructor <;> norm_num [TLPar.default]) (n := 10) (by norm_num) (fun i => (i : ℝ))
  obtain ⟨m', h1', h2', h3'⟩ := TLM.any_run U0.lawful
    { C := 1 / 12 * 1 * TLPar.default.C, D := 1 / 12 * 1 * TLPar.default.D, l := 1 * TLPar.default.l
      a := 1 / (1 / 2) * 0.01, e := TLPar.default.e, h := 1 * TLPar.default.h, dt := 1 / 12 * TLPar.default.dt }
    (by constructor <;> norm_num [TLPar.default]) (n := 10) (by norm_num) (fun i => 1 * (1 / 2) * (i : ℝ))
  exact ⟨m, m', h1, h1', h2, h2', _, _, _, _, _, _, _, _, forcing_exists _ _, forcing_exists _ _, h3, h3'⟩

omit L in
example : ∃ m m' : IRM U0 XR, IRM.Reachable U0.reg m ∧ IRM.Reachable U0.reg m' ∧ m.Phys U0.reg IRPar.default ∧
    m'.Phys U0.reg
      { q1 := IRPar.default.q1 * (3 / 2), q2 := IRPar.default.q2 * (3 / 2), d1 := IRPar.default.d1 * 12
        d2 := IRPar.default.d2 * 12, e := IRPar.default.e, dt := IRPar.default.dt * 12 } ∧ m'.q1.unit = m.q1.unit ∧
    ∃ d d' T1 T2 U T1' T2' U', IsForcing U0.reg d 10 (fun i => (i : ℝ)) ∧ IsForcing U0.reg d' 10 (fun i => 2 * (i : ℝ)) ∧
      IRM.Produces U0.reg m d 10 T1 T2 U ∧ IRM.Produces U0.reg m' d' 10 T1' T2' U' := by
  obtain ⟨m, h1, h2, h4, -, -, h3⟩ := IRM.any_run U0.lawful IRPar.default IRPar.default_ok (n := 10) (by norm_num)
    (fun i => (i : ℝ))
  obtain ⟨m', h1', h2', h4', -, -, h3'⟩ := IRM.any_run U0.lawful
    { q1 := IRPar.default.q1 * (3 / 2), q2 := IRPar.default.q2 * (3 / 2), d1 := IRPar.default.d1 * 12
      d2 := IRPar.default.d2 * 12, e := IRPar.default.e, dt := IRPar.default.dt * 12 }
    (by constructor <;> norm_num [IRPar.default]) (n := 10) (by norm_num) (fun i => 2 * (i : ℝ))
  exact ⟨m, m', h1, h1', h2, h2', h4'.trans h4.symm, _, _, _, _, _, _, _, _, forcing_exists _ _, forcing_exists _ _, h3, h3'⟩

/-! ## C85 Steadily rising forcing -/

/-- Forcing that rises by `c` per step: warming follows the equilibrium warming of the current forcing with a lag that
settles at `(C + efficacy C_D) / lambda0` seconds, the lower layer a further `C_D / eta` seconds behind, and heat uptake
settles at the value that keeps both layers warming at that rate.  The transients decay geometrically, uniformly in the
length of the run. -/
theorem C85_two_layer {m : TLM N XR} (hm : TLM.Reachable R m) {p : TLPar} (hp : m.Phys R p) (hpos : p.Pos)
    (ha : p.a = 0) (hdt : p.dt < 2 * p.tau1) (c : ℝ) :
    ∃ r K : ℝ, 0 ≤ r ∧ r < 1 ∧ ∀ d n T TD U, IsForcing R d n (fun i => c * i) → TLM.Produces R m d n T TD U →
      ∀ i < n, |T i - c / p.l * (i - (p.C + p.e * p.D) / p.l / p.dt)| ≤ K * r ^ i ∧
        |TD i - c / p.l * (i - ((p.C + p.e * p.D) / p.l + p.D / p.h) / p.dt)| ≤ K * r ^ i ∧
        ∀ j, i = j + 1 → |U i - (p.C + p.D) * (c / p.l) / p.dt| ≤ K * r ^ j := by
  obtain ⟨K, hK⟩ := TLPar.ramp hpos ha c
  obtain ⟨K', hK'⟩ := TLPar.ramp_uptake hpos ha c
  have hr : 0 ≤ p.rate := (abs_nonneg _).trans (le_max_left _ _)
  refine ⟨p.rate, max K K', hr, TLPar.rate_lt hpos hdt, ?_⟩
  intro d n T TD U hd h i hi
  obtain ⟨e1, e2, e3⟩ := val L hm hp hpos.ok hd h i hi
  rw [e1, e2]
  refine ⟨(hK i).1.trans ?_, (hK i).2.trans ?_, ?_⟩
  · exact mul_le_mul_of_nonneg_right (le_max_left _ _) (pow_nonneg hr i)
  · exact mul_le_mul_of_nonneg_right (le_max_left _ _) (pow_nonneg hr i)
  · rintro j rfl
    rw [e3]
    exact (hK' j).trans (mul_le_mul_of_nonneg_right (le_max_right _ _) (pow_nonneg hr j))

/-- Impulse response: the response to the same forcing in closed form. -/
theorem C85_impulse_response {m : IRM N XR} (hm : IRM.Reachable R m) {p : IRPar} (hp : m.Phys R p)
    (hd1 : 0 < p.d1) (hd2 : 0 < p.d2) (hdt : 0 < p.dt) {c : ℝ} {d : DArg N XR} {n : ℕ}
    (hd : IsForcing R d n (fun i => c * i)) {T1 T2 U : ℕ → ℝ} (h : IRM.Produces R m d n T1 T2 U) :
    ∀ i < n,
      T1 i = p.q1 * c * (i - (1 - Real.exp (-(p.dt / p.d1)) ^ i) / (1 - Real.exp (-(p.dt / p.d1)))) ∧
      T2 i = p.q2 * c * (i - (1 - Real.exp (-(p.dt / p.d2)) ^ i) / (1 - Real.exp (-(p.dt / p.d2)))) := by
  have hne : ∀ {d : ℝ}, 0 < d → Real.exp (-(p.dt / d)) ≠ 1 := by
    intro d hd
    have := div_pos hdt hd
    exact (Real.exp_lt_one_iff.mpr (by linarith)).ne
  intro i hi
  obtain ⟨a, b⟩ := box L hm hp hd h i hi
  rw [a, b]
  exact ⟨boxSol_ramp (hne hd1) c i, boxSol_ramp (hne hd2) c i⟩

omit L in
/-- Concrete case: both default models, 0.04 W/m² more each step. -/
example : TLPar.default.Pos ∧ TLPar.default.a = 0 ∧ TLPar.default.dt < 2 * TLPar.default.tau1 ∧
    ∃ (m : TLM U0 XR) (m' : IRM U0 XR), TLM.Reachable U0.reg m ∧ m.Phys U0.reg TLPar.default ∧ IRM.Reachable U0.reg m' ∧
      m'.Phys U0.reg IRPar.default ∧ ∃ d T TD U T1 T2 U', IsForcing U0.reg d 140 (fun i => 0.04 * i) ∧
      TLM.Produces U0.reg m d 140 T TD U ∧ IRM.Produces U0.reg m' d 140 T1 T2 U' := by
  refine ⟨TLPar.default_pos, rfl, C21_resolved TLPar.default_pos TLPar.default_resolved, ?_⟩
  obtain ⟨m, h1, h2, h3⟩ := TLM.any_run U0.lawful TLPar.default TLPar.default_ok (n := 140) (by norm_num)
    (fun i => 0.04 * i)
  obtain ⟨m', h1', h2', -, -, -, h3'⟩ := IRM.any_run U0.lawful IRPar.default IRPar.default_ok (n := 140) (by norm_num)
    (fun i => 0.04 * i)
  exact ⟨m, m', h1, h2, h1', h2', _, _, _, _, _, _, _, forcing_exists _ _, h3, h3'⟩

/-! ## C86 Cumulated warming -/

/-- If the forcings add up to `Φ`, the temperatures of each layer add up to `Φ / lambda0`: the cumulated warming depends
on the total forcing and the feedback only, not on when the forcing acts, nor on depths, `eta` or efficacy. -/
theorem C86_two_layer {m : TLM N XR} (hm : TLM.Reachable R m) {p : TLPar} (hp : m.Phys R p) (hpos : p.Pos)
    (ha : p.a = 0) (hdt : p.dt < 2 * p.tau1) {F : ℕ → ℝ} {Φ : ℝ}
    (hF : Filter.Tendsto (fun n => ∑ j ∈ Finset.range n, F j) Filter.atTop (nhds Φ)) {ε : ℝ} (hε : 0 < ε) :
    ∃ i₀ : ℕ, ∀ d n T TD U, IsForcing R d n F → TLM.Produces R m d n T TD U → ∀ i, i₀ ≤ i → i < n →
      |∑ j ∈ Finset.range (i + 1), T j - Φ / p.l| < ε ∧ |∑ j ∈ Finset.range (i + 1), TD j - Φ / p.l| < ε := by
  obtain ⟨h1, h2⟩ := TLPar.sum_tendsto hpos ha hdt hF
  obtain ⟨i1, k1⟩ := Metric.tendsto_atTop.mp h1 ε hε
  obtain ⟨i2, k2⟩ := Metric.tendsto_atTop.mp h2 ε hε
  refine ⟨max i1 i2, fun d n T TD U hd h i hi hin => ?_⟩
  simp only [max_le_iff] at hi
  have e := val L hm hp hpos.ok hd h
  have s1 : ∑ j ∈ Finset.range (i + 1), T j = ∑ j ∈ Finset.range (i + 1), p.T F j :=
    Finset.sum_congr rfl fun j hj => (e j (by have := Finset.mem_range.mp hj; omega)).1
  have s2 : ∑ j ∈ Finset.range (i + 1), TD j = ∑ j ∈ Finset.range (i + 1), p.TD F j :=
    Finset.sum_congr rfl fun j hj => (e j (by have := Finset.mem_range.mp hj; omega)).2.1
  rw [s1, s2]
  exact ⟨k1 i hi.1, k2 i hi.2⟩

/-- The same for the boxes: they add up to `q1 Φ` and `q2 Φ`, for every positive time step. -/
theorem C86_impulse_response {m : IRM N XR} (hm : IRM.Reachable R m) {p : IRPar} (hp : m.Phys R p)
    (hd1 : 0 < p.d1) (hd2 : 0 < p.d2) (hdt : 0 < p.dt) {F : ℕ → ℝ} {Φ : ℝ}
    (hF : Filter.Tendsto (fun n => ∑ j ∈ Finset.range n, F j) Filter.atTop (nhds Φ)) {ε : ℝ} (hε : 0 < ε) :
    ∃ i₀ : ℕ, ∀ d n T1 T2 U, IsForcing R d n F → IRM.Produces R m d n T1 T2 U → ∀ i, i₀ ≤ i → i < n →
      |∑ j ∈ Finset.range (i + 1), T1 j - p.q1 * Φ| < ε ∧ |∑ j ∈ Finset.range (i + 1), T2 j - p.q2 * Φ| < ε := by
  obtain ⟨i1, k1⟩ := Metric.tendsto_atTop.mp (boxSol_sum_tendsto (q := p.q1) hd1 hdt hF) ε hε
  obtain ⟨i2, k2⟩ := Metric.tendsto_atTop.mp (boxSol_sum_tendsto (q := p.q2) hd2 hdt hF) ε hε
  refine ⟨max i1 i2, fun d n T1 T2 U hd h i hi hin => ?_⟩
  simp only [max_le_iff] at hi
  have e := box L hm hp hd h
  have s1 : ∑ j ∈ Finset.range (i + 1), T1 j = ∑ j ∈ Finset.range (i + 1), p.T1 F j :=
    Finset.sum_congr rfl fun j hj => (e j (by have := Finset.mem_range.mp hj; omega)).1
  have s2 : ∑ j ∈ Finset.range (i + 1), T2 j = ∑ j ∈ Finset.range (i + 1), p.T2 F j :=
    Finset.sum_congr rfl fun j hj => (e j (by have := Finset.mem_range.mp hj; omega)).2
  rw [s1, s2]
  exact ⟨k1 i hi.1, k2 i hi.2⟩

omit L in
/-- Concrete case: a single year of 100 W/m² in the default models. -/
example : Filter.Tendsto (fun n => ∑ j ∈ Finset.range n, if j = 0 then (100 : ℝ) else 0) Filter.atTop (nhds 100) ∧
    ∃ (m : TLM U0 XR) (m' : IRM U0 XR), TLM.Reachable U0.reg m ∧ m.Phys U0.reg TLPar.default ∧ IRM.Reachable U0.reg m' ∧
      m'.Phys U0.reg IRPar.default ∧ ∃ d T TD U T1 T2 U', IsForcing U0.reg d 500 (fun j => if j = 0 then (100 : ℝ) else 0) ∧
      TLM.Produces U0.reg m d 500 T TD U ∧ IRM.Produces U0.reg m' d 500 T1 T2 U' := by
  constructor
  · refine tendsto_const_nhds.congr' (Filter.eventually_atTop.mpr ⟨1, fun n hn => ?_⟩)
    show (100 : ℝ) = ∑ j ∈ Finset.range n, if j = 0 then (100 : ℝ) else 0
    rw [Finset.sum_ite_eq' (Finset.range n) 0 (fun _ => (100 : ℝ)), if_pos (Finset.mem_range.mpr (by omega))]
  · obtain ⟨m, h1, h2, h3⟩ := TLM.any_run U0.lawful TLPar.default TLPar.default_ok (n := 500) (by norm_num)
      (fun j => if j = 0 then (100 : ℝ) else 0)
    obtain ⟨m', h1', h2', -, -, -, h3'⟩ := IRM.any_run U0.lawful IRPar.default IRPar.default_ok (n := 500) (by norm_num)
      (fun j => if j = 0 then (100 : ℝ) else 0)
    exact ⟨m, m', h1, h2, h1', h2', _, _, _, _, _, _, _, forcing_exists _ _, h3, h3'⟩

/-! ## C87 Heat content -/

/-- If the forcing settles at `c`, the cumulated reported heat uptake settles at the heat it takes to warm both layers by
`c / lambda0`, whatever efficacy and `eta`. -/
theorem C87_two_layer {m : TLM N XR} (hm : TLM.Reachable R m) {p : TLPar} (hp : m.Phys R p) (hpos : p.Pos)
    (ha : p.a = 0) (hdt : p.dt < 2 * p.tau1) {F : ℕ → ℝ} {c : ℝ} (hF : Filter.Tendsto F Filter.atTop (nhds c))
    {ε : ℝ} (hε : 0 < ε) :
    ∃ i₀ : ℕ, ∀ d n T TD U, IsForcing R d n F → TLM.Produces R m d n T TD U → ∀ i, i₀ ≤ i → i < n →
      |∑ j ∈ Finset.range (i + 1), U j * p.dt - (p.C + p.D) * (c / p.l)| < ε := by
  obtain ⟨h1, h2, -⟩ := TLPar.tendsto hpos ha hdt hF
  have h := (h1.const_mul p.C).add (h2.const_mul p.D)
  obtain ⟨i0, k⟩ := Metric.tendsto_atTop.mp h ε hε
  refine ⟨i0, fun d n T TD U hd h i hi hin => ?_⟩
  rw [C17_two_layer L hm hp hd h i hin]
  obtain ⟨e1, e2, -⟩ := val L hm hp hpos.ok hd h i hin
  rw [e1, e2, add_mul]
  exact k i hi

omit L in
/-- Concrete case: 4 W/m² held for 1000 years. -/
example : ∃ m : TLM U0 XR, TLM.Reachable U0.reg m ∧ m.Phys U0.reg TLPar.default ∧ TLPar.default.Pos ∧ TLPar.default.a = 0 ∧
    TLPar.default.dt < 2 * TLPar.default.tau1 ∧ Filter.Tendsto (fun _ : ℕ => (4 : ℝ)) Filter.atTop (nhds 4) ∧
    ∃ d T TD U, IsForcing U0.reg d 1000 (fun _ => 4) ∧ TLM.Produces U0.reg m d 1000 T TD U := by
  obtain ⟨m, h1, h2, h3⟩ := TLM.any_run U0.lawful TLPar.default TLPar.default_ok (n := 1000) (by norm_num) (fun _ => 4)
  exact ⟨m, h1, h2, TLPar.default_pos, rfl, C21_resolved TLPar.default_pos TLPar.default_resolved, tendsto_const_nhds,
    _, _, _, _, forcing_exists _ _, h3⟩

end TwoLayer
