import Verif.Proofs.TLFinite
import Verif.Proofs.Sensitivity
import Verif.Proofs.Init
import Verif.Props.TwoLayer

/-!
# C70–C75: how the responses depend on the forcing and on the parameters

Conventions as in `Props/TwoLayer.lean` and `Props/ImpulseResponse.lean`.
-/

set_option linter.unusedSimpArgs false
set_option linter.unusedSectionVars false

namespace TwoLayer
variable {N : Type} [Fintype N] [DecidableEq N] {R : Registry N XR} (L : R.Lawful)
include L

private theorem val {m : TLM N XR} (hm : TLM.Reachable R m) {p : TLPar} (hp : m.Phys R p) (hok : p.Ok)
    {d : DArg N XR} {n : ℕ} {F : ℕ → ℝ} (hd : IsForcing R d n F) {T TD U : ℕ → ℝ}
    (h : TLM.Produces R m d n T TD U) : ∀ i < n, T i = p.T F i ∧ TD i = p.TD F i ∧ U i = p.U F i :=
  TLM.produces_val L (TLM.Reachable.coherent R L.toDimensional hm) hp hok hd h

private theorem box {m : IRM N XR} (hm : IRM.Reachable R m) {p : IRPar} (hp : m.Phys R p)
    {d : DArg N XR} {n : ℕ} {F : ℕ → ℝ} (hd : IsForcing R d n F) {T1 T2 U : ℕ → ℝ}
    (h : IRM.Produces R m d n T1 T2 U) : ∀ i < n, T1 i = p.T1 F i ∧ T2 i = p.T2 F i :=
  (IRM.boxes_val L (IRM.Reachable.coherent R hm) hp hd h).1

/-! ## C70 An error in the forcing is not amplified -/

/-- Two forcings within `δ` of each other: both temperatures stay within `δ / lambda0` of each other, however long
the run. -/
theorem C70_two_layer {m : TLM N XR} (hm : TLM.Reachable R m) {p : TLPar} (hp : m.Phys R p) (hr : p.Resolved)
    (ha : p.a = 0) {d d' : DArg N XR} {n : ℕ} {F G : ℕ → ℝ} (hd : IsForcing R d n F) (hd' : IsForcing R d' n G)
    {T TD U T' TD' U' : ℕ → ℝ} (h : TLM.Produces R m d n T TD U) (h' : TLM.Produces R m d' n T' TD' U')
    {δ : ℝ} (hFG : ∀ i < n, |F i - G i| ≤ δ) : ∀ i < n, |T i - T' i| ≤ δ / p.l ∧ |TD i - TD' i| ≤ δ / p.l := by
  intro i hi
  obtain ⟨a, b, -⟩ := val L hm hp hr.ok hd h i hi
  obtain ⟨a', b', -⟩ := val L hm hp hr.ok hd' h' i hi
  rw [a, b, a', b']
  exact TLPar.lipschitz hr ha ((abs_nonneg _).trans (hFG i hi)) hFG i hi.le

/-- The same for the boxes, with `q1 δ` and `q2 δ`, whatever the time step. -/
theorem C70_impulse_response {m : IRM N XR} (hm : IRM.Reachable R m) {p : IRPar} (hp : m.Phys R p)
    (hq1 : 0 ≤ p.q1) (hq2 : 0 ≤ p.q2) (hd1 : 0 < p.d1) (hd2 : 0 < p.d2) (hdt : 0 ≤ p.dt)
    {d d' : DArg N XR} {n : ℕ} {F G : ℕ → ℝ} (hd : IsForcing R d n F) (hd' : IsForcing R d' n G)
    {T1 T2 U T1' T2' U' : ℕ → ℝ} (h : IRM.Produces R m d n T1 T2 U) (h' : IRM.Produces R m d' n T1' T2' U')
    {δ : ℝ} (hFG : ∀ i < n, |F i - G i| ≤ δ) :
    ∀ i < n, |T1 i - T1' i| ≤ p.q1 * δ ∧ |T2 i - T2' i| ≤ p.q2 * δ ∧
      |(T1 i + T2 i) - (T1' i + T2' i)| ≤ (p.q1 + p.q2) * δ := by
  intro i hi
  obtain ⟨a, b⟩ := box L hm hp hd h i hi
  obtain ⟨a', b'⟩ := box L hm hp hd' h' i hi
  have hδ := (abs_nonneg _).trans (hFG i hi)
  have k1 := boxSol_lipschitz (d := p.d1) (dt := p.dt) hq1 hd1 hdt hδ hFG i hi.le
  have k2 := boxSol_lipschitz (d := p.d2) (dt := p.dt) hq2 hd2 hdt hδ hFG i hi.le
  have k1 : |T1 i - T1' i| ≤ p.q1 * δ := by rw [a, a']; exact k1
  have k2 : |T2 i - T2' i| ≤ p.q2 * δ := by rw [b, b']; exact k2
  refine ⟨k1, k2, ?_⟩
  have e : (T1 i + T2 i) - (T1' i + T2' i) = (T1 i - T1' i) + (T2 i - T2' i) := by ring
  rw [e, add_mul]
  exact (abs_add_le _ _).trans (add_le_add k1 k2)

omit L in
/-- Concrete case: `TwoLayerModel()` and `ImpulseResponseModel()`, forcings `i` and `i + (-1)^i / 10`, 200 years. -/
example : (∀ i : ℕ, i < 200 → |(i : ℝ) - (i + (-1) ^ i / 10)| ≤ 0.1) ∧ TLPar.default.Resolved ∧ TLPar.default.a = 0 ∧
    ∃ m : TLM U0 XR, TLM.Reachable U0.reg m ∧ m.Phys U0.reg TLPar.default ∧
    ∃ d d' T TD U T' TD' U', IsForcing U0.reg d 200 (fun i => (i : ℝ)) ∧
      IsForcing U0.reg d' 200 (fun i => (i : ℝ) + (-1) ^ i / 10) ∧ TLM.Produces U0.reg m d 200 T TD U ∧
      TLM.Produces U0.reg m d' 200 T' TD' U' := by
  refine ⟨fun i _ => ?_, TLPar.default_resolved, rfl, ?_⟩
  · have : (i : ℝ) - (i + (-1) ^ i / 10) = -((-1) ^ i / 10) := by ring
    rw [this, abs_neg, abs_div, abs_pow, abs_neg, abs_one, one_pow]; norm_num
  · obtain ⟨m, h1, h2⟩ := TLM.exists_phys U0.lawful TLPar.default
    have hc := TLM.Reachable.coherent U0.reg U0.lawful.toDimensional h1
    exact ⟨m, h1, h2, _, _, _, _, _, _, _, _, forcing_exists _ _, forcing_exists _ _,
      TLM.produces_sol U0.lawful hc h2 TLPar.default_ok (by norm_num) (forcing_exists _ _),
      TLM.produces_sol U0.lawful hc h2 TLPar.default_ok (by norm_num) (forcing_exists _ _)⟩

/-! ## C71 Stabilised forcing -/

/-- Forcing that settles at `c`: both temperatures settle at `c / lambda0` and heat uptake at 0. How long that takes
does not depend on the length of the run. -/
theorem C71_two_layer {m : TLM N XR} (hm : TLM.Reachable R m) {p : TLPar} (hp : m.Phys R p) (hpos : p.Pos)
    (ha : p.a = 0) (hdt : p.dt < 2 * p.tau1) {F : ℕ → ℝ} {c : ℝ} (hF : Filter.Tendsto F Filter.atTop (nhds c))
    {ε : ℝ} (hε : 0 < ε) :
    ∃ i₀ : ℕ, ∀ d n T TD U, IsForcing R d n F → TLM.Produces R m d n T TD U →
      ∀ i, i₀ ≤ i → i < n → |T i - c / p.l| < ε ∧ |TD i - c / p.l| < ε ∧ |U i| < ε := by
  obtain ⟨h1, h2, h3⟩ := TLPar.tendsto hpos ha hdt hF
  obtain ⟨i1, k1⟩ := Metric.tendsto_atTop.mp h1 ε hε
  obtain ⟨i2, k2⟩ := Metric.tendsto_atTop.mp h2 ε hε
  obtain ⟨i3, k3⟩ := Metric.tendsto_atTop.mp h3 ε hε
  refine ⟨max i1 (max i2 i3), fun d n T TD U hd h i hi hin => ?_⟩
  obtain ⟨a, b, e⟩ := val L hm hp hpos.ok hd h i hin
  simp only [max_le_iff] at hi
  have k3 := k3 i hi.2.2
  rw [Real.dist_eq, sub_zero] at k3
  rw [a, b, e]
  exact ⟨k1 i hi.1, k2 i hi.2.1, k3⟩

/-- The impulse response settles at `q1 c`, `q2 c`, for every positive time step. -/
theorem C71_impulse_response {m : IRM N XR} (hm : IRM.Reachable R m) {p : IRPar} (hp : m.Phys R p)
    (hd1 : 0 < p.d1) (hd2 : 0 < p.d2) (hdt : 0 < p.dt) {F : ℕ → ℝ} {c : ℝ}
    (hF : Filter.Tendsto F Filter.atTop (nhds c)) {ε : ℝ} (hε : 0 < ε) :
    ∃ i₀ : ℕ, ∀ d n T1 T2 U, IsForcing R d n F → IRM.Produces R m d n T1 T2 U →
      ∀ i, i₀ ≤ i → i < n → |T1 i - p.q1 * c| < ε ∧ |T2 i - p.q2 * c| < ε ∧
        |(T1 i + T2 i) - (p.q1 + p.q2) * c| < ε := by
  have h1 := boxSol_tendsto (q := p.q1) hd1 hdt hF
  have h2 := boxSol_tendsto (q := p.q2) hd2 hdt hF
  have h3 := h1.add h2
  rw [← add_mul] at h3
  obtain ⟨i1, k1⟩ := Metric.tendsto_atTop.mp h1 ε hε
  obtain ⟨i2, k2⟩ := Metric.tendsto_atTop.mp h2 ε hε
  obtain ⟨i3, k3⟩ := Metric.tendsto_atTop.mp h3 ε hε
  refine ⟨max i1 (max i2 i3), fun d n T1 T2 U hd h i hi hin => ?_⟩
  obtain ⟨a, b⟩ := box L hm hp hd h i hin
  simp only [max_le_iff] at hi
  rw [a, b]
  exact ⟨k1 i hi.1, k2 i hi.2.1, k3 i hi.2.2⟩

/-- After the forcing has been removed the temperatures return to zero: the case `c = 0`. -/
theorem C71_recovery {m : TLM N XR} (hm : TLM.Reachable R m) {p : TLPar} (hp : m.Phys R p) (hpos : p.Pos)
    (ha : p.a = 0) (hdt : p.dt < 2 * p.tau1) {F : ℕ → ℝ} {k : ℕ} (hF : ∀ i, k ≤ i → F i = 0) {ε : ℝ} (hε : 0 < ε) :
    ∃ i₀ : ℕ, ∀ d n T TD U, IsForcing R d n F → TLM.Produces R m d n T TD U →
      ∀ i, i₀ ≤ i → i < n → |T i| < ε ∧ |TD i| < ε ∧ |U i| < ε := by
  have hF' : Filter.Tendsto F Filter.atTop (nhds 0) :=
    tendsto_const_nhds.congr' (Filter.eventually_atTop.mpr ⟨k, fun i hi => (hF i hi).symm⟩)
  obtain ⟨i₀, h⟩ := C71_two_layer L hm hp hpos ha hdt hF' hε
  refine ⟨i₀, fun d n T TD U hd hpr i hi hin => ?_⟩
  have := h d n T TD U hd hpr i hi hin
  simpa using this

omit L in
/-- Concrete case: `TwoLayerModel()` and a forcing `4 - 4 / (i + 1)`, 1000 years. -/
example : Filter.Tendsto (fun i : ℕ => 4 - 4 / ((i : ℝ) + 1)) Filter.atTop (nhds 4) ∧
    TLPar.default.Pos ∧ TLPar.default.a = 0 ∧ TLPar.default.dt < 2 * TLPar.default.tau1 ∧
    ∃ m : TLM U0 XR, TLM.Reachable U0.reg m ∧ m.Phys U0.reg TLPar.default ∧ ∃ d T TD U,
      IsForcing U0.reg d 1000 (fun i : ℕ => 4 - 4 / ((i : ℝ) + 1)) ∧ TLM.Produces U0.reg m d 1000 T TD U := by
  refine ⟨?_, TLPar.default_pos, rfl, C21_resolved TLPar.default_pos TLPar.default_resolved, ?_⟩
  · have := (tendsto_one_div_add_atTop_nhds_zero_nat (𝕜 := ℝ)).const_mul 4
    have := this.const_sub 4
    simpa [div_eq_mul_inv] using this
  · obtain ⟨m, h1, h2, h3⟩ := TLM.any_run U0.lawful TLPar.default TLPar.default_ok (n := 1000) (by norm_num)
      (fun i : ℕ => 4 - 4 / ((i : ℝ) + 1))
    exact ⟨m, h1, h2, _, _, _, _, forcing_exists _ _, h3⟩

/-! ## C72 Stronger feedback, less warming -/

/-- Raising `lambda0`, everything else equal, never raises a temperature under non-negative forcing (any `a ≥ 0`). -/
theorem C72_two_layer {m m' : TLM N XR} (hm : TLM.Reachable R m) (hm' : TLM.Reachable R m') {p : TLPar} {l' : ℝ}
    (hp : m.Phys R p) (hp' : m'.Phys R { p with l := l' }) (hr : TLPar.Resolved { p with l := l' }) (hll : p.l ≤ l')
    (ha : 0 ≤ p.a) {d : DArg N XR} {n : ℕ} {F : ℕ → ℝ} (hd : IsForcing R d n F) (hF : ∀ i < n, 0 ≤ F i)
    {T TD U T' TD' U' : ℕ → ℝ} (h : TLM.Produces R m d n T TD U) (h' : TLM.Produces R m' d n T' TD' U') :
    ∀ i < n, 0 ≤ T' i ∧ T' i ≤ T i ∧ 0 ≤ TD' i ∧ TD' i ≤ TD i := by
  intro i hi
  obtain ⟨e1, e2, -⟩ := val L hm hp ⟨hr.C.ne', hr.D.ne', hr.dt.ne'⟩ hd h i hi
  obtain ⟨e1', e2', -⟩ := val L hm' hp' hr.ok hd h' i hi
  rw [e1, e2, e1', e2']
  obtain ⟨⟨x1, x2⟩, x3, x4⟩ := TLPar.anti_l hr hll ha hF i hi.le
  exact ⟨x1, x3, x2, x4⟩

/-- Each box is proportional to its `q`, for every forcing and time step. -/
theorem C72_impulse_response {m m' : IRM N XR} (hm : IRM.Reachable R m) (hm' : IRM.Reachable R m') {p : IRPar}
    {x y : ℝ} (hp : m.Phys R p) (hp' : m'.Phys R { p with q1 := x * p.q1, q2 := y * p.q2 })
    {d : DArg N XR} {n : ℕ} {F : ℕ → ℝ} (hd : IsForcing R d n F) {T1 T2 U T1' T2' U' : ℕ → ℝ}
    (h : IRM.Produces R m d n T1 T2 U) (h' : IRM.Produces R m' d n T1' T2' U') :
    ∀ i < n, T1' i = x * T1 i ∧ T2' i = y * T2 i := by
  intro i hi
  obtain ⟨a, b⟩ := box L hm hp hd h i hi
  obtain ⟨a', b'⟩ := box L hm' hp' hd h' i hi
  rw [a, b, a', b']
  exact ⟨boxSol_scale x i, boxSol_scale y i⟩

omit L in
/-- Concrete case: `lambda0` 3.74/3 and 2 W/m²/K, `a = 0.01`; the doubled `q1`. -/
example : TLPar.Resolved { TLPar.default with a := 0.01, l := 2 } ∧ TLPar.default.l ≤ 2 ∧
    ∃ m m' : TLM U0 XR, TLM.Reachable U0.reg m ∧ TLM.Reachable U0.reg m' ∧
    m.Phys U0.reg { TLPar.default with a := 0.01 } ∧ m'.Phys U0.reg { TLPar.default with a := 0.01, l := 2 } ∧
    ∃ d T TD U T' TD' U', IsForcing U0.reg d 10 (fun i => (i : ℝ)) ∧ TLM.Produces U0.reg m d 10 T TD U ∧
      TLM.Produces U0.reg m' d 10 T' TD' U' := by
  refine ⟨by constructor <;> norm_num [TLPar.default], by norm_num [TLPar.default], ?_⟩
  obtain ⟨m, h1, h2, h3⟩ := TLM.any_run U0.lawful { TLPar.default with a := 0.01 }
    (by constructor <;> norm_num [TLPar.default]) (n := 10) (by norm_num) (fun i => (i : ℝ))
  obtain ⟨m', h1', h2', h3'⟩ := TLM.any_run U0.lawful { TLPar.default with a := 0.01, l := 2 }
    (by constructor <;> norm_num [TLPar.default]) (n := 10) (by norm_num) (fun i => (i : ℝ))
  exact ⟨m, m', h1, h1', h2, h2', _, _, _, _, _, _, _, forcing_exists _ _, h3, h3'⟩

omit L in
example : ∃ m m' : IRM U0 XR, IRM.Reachable U0.reg m ∧ IRM.Reachable U0.reg m' ∧ m.Phys U0.reg IRPar.default ∧
    m'.Phys U0.reg { IRPar.default with q1 := 2 * IRPar.default.q1, q2 := 1 * IRPar.default.q2 } ∧
    ∃ d T1 T2 U T1' T2' U', IsForcing U0.reg d 10 (fun i => (i : ℝ)) ∧ IRM.Produces U0.reg m d 10 T1 T2 U ∧
      IRM.Produces U0.reg m' d 10 T1' T2' U' := by
  obtain ⟨m, h1, h2, -, -, -, h3⟩ := IRM.any_run U0.lawful IRPar.default IRPar.default_ok (n := 10) (by norm_num)
    (fun i => (i : ℝ))
  obtain ⟨m', h1', h2', -, -, -, h3'⟩ := IRM.any_run U0.lawful
    { IRPar.default with q1 := 2 * IRPar.default.q1, q2 := 1 * IRPar.default.q2 }
    (by constructor <;> norm_num [IRPar.default]) (n := 10) (by norm_num) (fun i => (i : ℝ))
  exact ⟨m, m', h1, h1', h2, h2', _, _, _, _, _, _, _, forcing_exists _ _, h3, h3'⟩

/-! ## C73 Rising forcing -/

/-- Under forcing that never decreases, from a non-negative start, both temperatures never decrease, the lower layer
stays below the upper one, and the ocean takes up heat at every step (any `a ≥ 0`). -/
theorem C73_two_layer {m : TLM N XR} (hm : TLM.Reachable R m) {p : TLPar} (hp : m.Phys R p) (hr : p.Resolved)
    (ha : 0 ≤ p.a) {d : DArg N XR} {n : ℕ} {F : ℕ → ℝ} (hd : IsForcing R d n F) (h0 : 0 ≤ F 0)
    (hF : ∀ i, i + 1 < n → F i ≤ F (i + 1)) {T TD U : ℕ → ℝ} (h : TLM.Produces R m d n T TD U) :
    ∀ i, i + 1 < n → T i ≤ T (i + 1) ∧ TD i ≤ TD (i + 1) ∧ TD (i + 1) ≤ T (i + 1) ∧ 0 ≤ U (i + 1) := by
  intro i hi
  obtain ⟨a, b, -⟩ := val L hm hp hr.ok hd h i (by omega)
  obtain ⟨a', b', c'⟩ := val L hm hp hr.ok hd h (i + 1) hi
  obtain ⟨x1, x2, x3, x4⟩ := TLPar.rising hr ha h0 hF i hi.le
  rw [a, b, a', b', c']
  exact ⟨x1, x2, x3.trans x1, x4⟩

/-- The boxes never decrease and stay below the equilibrium of the current forcing. -/
theorem C73_impulse_response {m : IRM N XR} (hm : IRM.Reachable R m) {p : IRPar} (hp : m.Phys R p)
    (hq1 : 0 ≤ p.q1) (hq2 : 0 ≤ p.q2) (hd1 : 0 < p.d1) (hd2 : 0 < p.d2) (hdt : 0 ≤ p.dt)
    {d : DArg N XR} {n : ℕ} {F : ℕ → ℝ} (hd : IsForcing R d n F) (h0 : 0 ≤ F 0)
    (hF : ∀ i, i + 1 < n → F i ≤ F (i + 1)) {T1 T2 U : ℕ → ℝ} (h : IRM.Produces R m d n T1 T2 U) :
    ∀ i, i + 1 < n → T1 i ≤ T1 (i + 1) ∧ T2 i ≤ T2 (i + 1) ∧ T1 (i + 1) ≤ p.q1 * F i ∧ T2 (i + 1) ≤ p.q2 * F i := by
  intro i hi
  obtain ⟨a, b⟩ := box L hm hp hd h i (by omega)
  obtain ⟨a', b'⟩ := box L hm hp hd h (i + 1) hi
  rw [a, b, a', b']
  obtain ⟨x1, x2⟩ := boxSol_rising (d := p.d1) (dt := p.dt) hq1 hd1 hdt h0 hF i hi.le
  obtain ⟨y1, y2⟩ := boxSol_rising (d := p.d2) (dt := p.dt) hq2 hd2 hdt h0 hF i hi.le
  exact ⟨x1, y1, x2, y2⟩

/-! ## C74 More heat capacity, slower warming -/

/-- Deeper layers (`du`, `dl` larger, everything else equal) never warm more under rising forcing. -/
theorem C74_two_layer {m m' : TLM N XR} (hm : TLM.Reachable R m) (hm' : TLM.Reachable R m') {p : TLPar} {C' D' : ℝ}
    (hp : m.Phys R p) (hp' : m'.Phys R { p with C := C', D := D' }) (hr : p.Resolved) (hC : p.C ≤ C') (hD : p.D ≤ D')
    (ha : 0 ≤ p.a) {d : DArg N XR} {n : ℕ} {F : ℕ → ℝ} (hd : IsForcing R d n F) (h0 : 0 ≤ F 0)
    (hF : ∀ i, i + 1 < n → F i ≤ F (i + 1)) {T TD U T' TD' U' : ℕ → ℝ}
    (h : TLM.Produces R m d n T TD U) (h' : TLM.Produces R m' d n T' TD' U') :
    ∀ i < n, T' i ≤ T i ∧ TD' i ≤ TD i := by
  intro i hi
  obtain ⟨e1, e2, -⟩ := val L hm hp hr.ok hd h i hi
  obtain ⟨e1', e2', -⟩ := val L hm' hp'
    ⟨(lt_of_lt_of_le hr.C hC).ne', (lt_of_lt_of_le hr.D hD).ne', hr.dt.ne'⟩ hd h' i hi
  rw [e1, e2, e1', e2']
  exact TLPar.anti_cap hr hC hD ha h0 hF i hi.le

omit L in
/-- Concrete case for C73 and C74: default parameters with `a = 0.01`; twice the mixed layer, three times the deep
ocean; forcing `0, 1, 2, …`. -/
example : TLPar.Resolved { TLPar.default with a := 0.01 } ∧
    ∃ m m' : TLM U0 XR, TLM.Reachable U0.reg m ∧ TLM.Reachable U0.reg m' ∧
    m.Phys U0.reg { TLPar.default with a := 0.01 } ∧
    m'.Phys U0.reg { TLPar.default with a := 0.01, C := 2 * TLPar.default.C, D := 3 * TLPar.default.D } ∧
    ∃ d T TD U T' TD' U', IsForcing U0.reg d 10 (fun i => (i : ℝ)) ∧ TLM.Produces U0.reg m d 10 T TD U ∧
      TLM.Produces U0.reg m' d 10 T' TD' U' := by
  refine ⟨by constructor <;> norm_num [TLPar.default], ?_⟩
  obtain ⟨m, h1, h2, h3⟩ := TLM.any_run U0.lawful { TLPar.default with a := 0.01 }
    (by constructor <;> norm_num [TLPar.default]) (n := 10) (by norm_num) (fun i => (i : ℝ))
  obtain ⟨m', h1', h2', h3'⟩ := TLM.any_run U0.lawful
    { TLPar.default with a := 0.01, C := 2 * TLPar.default.C, D := 3 * TLPar.default.D }
    (by constructor <;> norm_num [TLPar.default]) (n := 10) (by norm_num) (fun i => (i : ℝ))
  exact ⟨m, m', h1, h1', h2, h2', _, _, _, _, _, _, _, forcing_exists _ _, h3, h3'⟩

/-! ## C75 Sign symmetry -/

/-- Reversing the sign of the forcing and of `a` reverses the sign of every output; with `a = 0` cooling mirrors
warming. -/
theorem C75_two_layer {m m' : TLM N XR} (hm : TLM.Reachable R m) (hm' : TLM.Reachable R m') {p : TLPar}
    (hp : m.Phys R p) (hp' : m'.Phys R { p with a := -p.a }) {d d' : DArg N XR} {n : ℕ} {F : ℕ → ℝ}
    (hd : IsForcing R d n F) (hd' : IsForcing R d' n fun i => -F i) {T TD U T' TD' U' : ℕ → ℝ}
    (h : TLM.Produces R m d n T TD U) (h' : TLM.Produces R m' d' n T' TD' U') :
    ∀ i < n, T' i = -T i ∧ TD' i = -TD i ∧ U' i = -U i := by
  intro i hi
  obtain ⟨e1, e2, e3⟩ := TLM.produces_any L (TLM.Reachable.coherent R L.toDimensional hm) hp hd h i hi
  obtain ⟨e1', e2', e3'⟩ := TLM.produces_any L (TLM.Reachable.coherent R L.toDimensional hm') hp' hd' h' i hi
  rw [e1, e2, e3, e1', e2', e3']
  exact TLPar.sign F i

omit L in
/-- Concrete case: `a = 0.01` and `a = -0.01`. -/
example : ∃ m m' : TLM U0 XR, TLM.Reachable U0.reg m ∧ TLM.Reachable U0.reg m' ∧
    m.Phys U0.reg { TLPar.default with a := 0.01 } ∧ m'.Phys U0.reg { TLPar.default with a := -0.01 } ∧
    ∃ d d' T TD U T' TD' U', IsForcing U0.reg d 10 (fun i => (i : ℝ)) ∧ IsForcing U0.reg d' 10 (fun i => -(i : ℝ)) ∧
      TLM.Produces U0.reg m d 10 T TD U ∧ TLM.Produces U0.reg m' d' 10 T' TD' U' := by
  obtain ⟨m, h1, h2, h3⟩ := TLM.any_run U0.lawful { TLPar.default with a := 0.01 }
    (by constructor <;> norm_num [TLPar.default]) (n := 10) (by norm_num) (fun i => (i : ℝ))
  obtain ⟨m', h1', h2', h3'⟩ := TLM.any_run U0.lawful { TLPar.default with a := -0.01 }
    (by constructor <;> norm_num [TLPar.default]) (n := 10) (by norm_num) (fun i => -(i : ℝ))
  exact ⟨m, m', h1, h1', h2, h2', _, _, _, _, _, _, _, _, forcing_exists _ _, forcing_exists _ _, h3, h3'⟩

end TwoLayer
