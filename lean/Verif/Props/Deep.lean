import Verif.Proofs.Deep
import Verif.Proofs.TLFinite
import Verif.Proofs.Init
import Verif.Proofs.ConvertPhys
import Verif.Props.TwoLayer

/-!
# C104, C105: very deep lower layer; parameters and timescales

Conventions as in `Props/TwoLayer.lean` and `Props/Convert.lean`.
-/

set_option linter.unusedSimpArgs false
set_option linter.unusedSectionVars false

namespace TwoLayer
variable {N : Type} [Fintype N] [DecidableEq N] {R : Registry N XR} (L : R.Lawful)
include L

private theorem val {m : TLM N XR} (hm : TLM.Reachable R m) {p : TLPar} (hp : m.Phys R p) (hok : p.Ok)
    {d : DArg N XR} {n : ℕ} {F : ℕ → ℝ} (hd : IsForcing R d n F) {T TD U : ℕ → ℝ}
    (h : TLM.Produces R m d n T TD U) : ∀ i < n, T i = p.T F i ∧ TD i = p.TD F i ∧ U i = p.U F i :=
  TLM.produces_val L (TLM.Reachable.coherent R L.toDimensional hm) hp hok hd h

/-! ## C104 An infinitely deep lower layer -/

omit L in
private theorem upto {n : ℕ} {P : ℕ → ℝ → Prop} (h : ∀ i, ∀ᶠ D in Filter.atTop, P i D) :
    ∃ D₀ : ℝ, 0 < D₀ ∧ ∀ D, D₀ ≤ D → ∀ i < n, P i D := by
  have : ∀ᶠ D in Filter.atTop, ∀ i ∈ Finset.range n, P i D := (Filter.eventually_all_finset _).mpr fun i _ => h i
  obtain ⟨D₀, hD⟩ := Filter.eventually_atTop.mp this
  refine ⟨max D₀ 1, lt_of_lt_of_le one_pos (le_max_right _ _), fun D hle i hi => ?_⟩
  exact hD D ((le_max_left _ _).trans hle) i (Finset.mem_range.mpr hi)

/-- As the lower layer gets deeper, all other parameters (any sign, any `a`) and the forcing being fixed, a run
approaches the one-layer model with feedback `lambda0 - a T + efficacy * eta`: `T` approaches its solution `S`, the
lower temperature approaches 0, and heat uptake what the upper layer gains plus what flows down, `eta S`. -/
theorem C104_limit (p : TLPar) (hC : p.C ≠ 0) (hdt : p.dt ≠ 0) {n : ℕ} {F S : ℕ → ℝ}
    (hS : OneLayerEq p.C p.l p.a (p.e * p.h) p.dt n F S) {ε : ℝ} (hε : 0 < ε) :
    ∃ D₀ : ℝ, 0 < D₀ ∧ ∀ D, D₀ ≤ D → ∀ m : TLM N XR, TLM.Reachable R m → m.Phys R { p with D := D } →
      ∀ d T TD U, IsForcing R d n F → TLM.Produces R m d n T TD U →
        (∀ i < n, |T i - S i| < ε ∧ |TD i| < ε) ∧
        ∀ i, i + 1 < n → |U (i + 1) - (p.C * ((S (i + 1) - S i) / p.dt) + p.h * S i)| < ε := by
  have ev : ∀ i, ∀ᶠ D in Filter.atTop, |TLPar.T { p with D := D } F i - p.top.T F i| < ε ∧
      |TLPar.TD { p with D := D } F i| < ε ∧ |TLPar.U { p with D := D } F i - p.topU F i| < ε := by
    intro i
    obtain ⟨a, b⟩ := TLPar.deep_tendsto (p := p) hdt F i
    have c := TLPar.deep_U (p := p) hC hdt F i
    have a := (Metric.tendsto_nhds.mp a) ε hε
    have b := (Metric.tendsto_nhds.mp b) ε hε
    have c := (Metric.tendsto_nhds.mp c) ε hε
    simp only [Real.dist_eq, sub_zero] at a b c
    filter_upwards [a, b, c] with D h1 h2 h3 using ⟨h1, h2, h3⟩
  obtain ⟨D₀, h0, hD⟩ := upto (n := n) ev
  refine ⟨D₀, h0, fun D hle m hm hp d T TD U hd h => ?_⟩
  have hok : TLPar.Ok { p with D := D } := ⟨hC, (lt_of_lt_of_le h0 hle).ne', hdt⟩
  have hv := val L hm hp hok hd h
  have hs := TLPar.oneLayer_val hC hdt hS
  refine ⟨fun i hi => ?_, fun i hi => ?_⟩
  · rw [(hv i hi).1, (hv i hi).2.1, hs i hi]
    exact ⟨(hD D hle i hi).1, (hD D hle i hi).2.1⟩
  · rw [(hv (i + 1) hi).2.2, hs i (by omega), hs (i + 1) hi]
    exact (hD D hle (i + 1) hi).2.2

/-- The limit is what the package itself computes when the second layer is removed (`eta = 0`) and `lambda0` is
raised by `efficacy * eta`. -/
theorem C104_limit_object (p : TLPar) {n : ℕ} {F : ℕ → ℝ} {m₀ : TLM N XR} (hm₀ : TLM.Reachable R m₀)
    (hp₀ : m₀.Phys R { p with l := p.l + p.e * p.h, h := 0 }) {d₀ : DArg N XR} (hd₀ : IsForcing R d₀ n F)
    {S SD V : ℕ → ℝ} (h₀ : TLM.Produces R m₀ d₀ n S SD V) {ε : ℝ} (hε : 0 < ε) :
    ∃ D₀ : ℝ, 0 < D₀ ∧ ∀ D, D₀ ≤ D → ∀ m : TLM N XR, TLM.Reachable R m → m.Phys R { p with D := D } →
      ∀ d T TD U, IsForcing R d n F → TLM.Produces R m d n T TD U → ∀ i < n, |T i - S i| < ε ∧ |TD i| < ε := by
  have co {m : TLM N XR} (hm : TLM.Reachable R m) := TLM.Reachable.coherent R L.toDimensional hm
  by_cases hn : 1 < n
  swap
  · refine ⟨1, one_pos, fun D _ m hm hp d T TD U hd h i hi => ?_⟩
    obtain rfl : i = 0 := by omega
    obtain ⟨a, b, -⟩ := TLM.produces_any L (co hm) hp hd h 0 hi
    obtain ⟨a', -, -⟩ := TLM.produces_any L (co hm₀) hp₀ hd₀ h₀ 0 hi
    rw [a, b, a']
    simpa [TLPar.T, TLPar.TD, TLPar.sol] using hε
  have hok := TLM.produces_ok L (co hm₀) hp₀ hn hd₀ h₀
  have hv := val L hm₀ hp₀ hok hd₀ h₀
  replace hok : p.Ok := ⟨hok.C, hok.D, hok.dt⟩
  have hS : OneLayerEq p.C p.l p.a (p.e * p.h) p.dt n F S := by
    have k := TLPar.oneLayer_top hok.C hok.dt n F
    refine ⟨fun h => ?_, fun i hi => ?_⟩
    · rw [(hv 0 h).1]; rfl
    · rw [(hv i (by omega)).1, (hv (i + 1) hi).1]; exact k.2 i hi
  obtain ⟨D₀, h0, hD⟩ := C104_limit L p hok.C hok.dt hS hε
  exact ⟨D₀, h0, fun D hle m hm hp d T TD U hd h => (hD D hle m hm hp d T TD U hd h).1⟩

/-- How deep is deep enough (`a = 0`, resolved time step, forcing within `±M`): after `i` steps the lower layer has
warmed by at most `i dt eta / C_D * M / lambda0` and the upper layer differs from the one-layer model by at most
`efficacy eta / (lambda0 + efficacy eta)` of that. -/
theorem C104_rate {m : TLM N XR} (hm : TLM.Reachable R m) {p : TLPar} (hp : m.Phys R p) (hr : p.Resolved) (ha : p.a = 0)
    {d : DArg N XR} {n : ℕ} {F S : ℕ → ℝ} (hd : IsForcing R d n F) {M : ℝ} (hF : ∀ i < n, |F i| ≤ M)
    (hS : OneLayerEq p.C p.l 0 (p.e * p.h) p.dt n F S) {T TD U : ℕ → ℝ} (h : TLM.Produces R m d n T TD U) :
    ∀ i < n, |TD i| ≤ i * p.dt * p.h / p.D * (M / p.l) ∧
      |T i - S i| ≤ p.e * p.h / (p.l + p.e * p.h) * (i * p.dt * p.h / p.D * (M / p.l)) := by
  intro i hi
  obtain ⟨a, b, -⟩ := val L hm hp hr.ok hd h i hi
  rw [← ha] at hS
  rw [a, b, TLPar.oneLayer_val hr.ok.C hr.ok.dt hS i hi]
  have k := TLPar.deep_bound hr ha hF i hi.le
  have e : (i : ℝ) * p.dt * p.h / p.D * (M / p.l) = i * (p.dt * p.h / p.D) * (M / p.l) := by ring
  rw [e]; exact k

/-- An infinitely deep ocean takes up heat for ever: under constant forcing `c` there is a time after which, for any
horizon `n` and every lower layer deep enough for that horizon, the upper temperature stays near
`c / (lambda0 + efficacy eta)`, below the equilibrium warming `c / lambda0`, and heat uptake near
`eta c / (lambda0 + efficacy eta)`, which is not zero. -/
theorem C104_uptake (p : TLPar) (hC : 0 < p.C) (hdt : 0 < p.dt) (hk : 0 < p.l + p.e * p.h)
    (hx : p.dt * (p.l + p.e * p.h) < 2 * p.C) (ha : p.a = 0) (c : ℝ) {ε : ℝ} (hε : 0 < ε) :
    ∃ i₀ : ℕ, ∀ n, ∃ D₀ : ℝ, 0 < D₀ ∧ ∀ D, D₀ ≤ D → ∀ m : TLM N XR, TLM.Reachable R m → m.Phys R { p with D := D } →
      ∀ d T TD U, IsForcing R d n (fun _ => c) → TLM.Produces R m d n T TD U → ∀ i, i₀ ≤ i → i < n →
        |T i - c / (p.l + p.e * p.h)| < ε ∧ |U i - p.h * c / (p.l + p.e * p.h)| < ε := by
  obtain ⟨h1, h2⟩ := TLPar.top_const hC hdt hk hx ha c
  obtain ⟨i1, k1⟩ := Metric.tendsto_atTop.mp h1 (ε / 2) (half_pos hε)
  obtain ⟨i2, k2⟩ := Metric.tendsto_atTop.mp h2 (ε / 2) (half_pos hε)
  simp only [Real.dist_eq] at k1 k2
  refine ⟨max i1 i2 + 1, fun n => ?_⟩
  obtain ⟨D₀, h0, hD⟩ := C104_limit L p hC.ne' hdt.ne' (TLPar.oneLayer_top hC.ne' hdt.ne' n fun _ => c) (half_pos hε)
  refine ⟨D₀, h0, fun D hle m hm hp d T TD U hd h i hi hin => ?_⟩
  obtain ⟨a, b⟩ := hD D hle m hm hp d T TD U hd h
  have hi1 : i1 ≤ i := (le_max_left i1 i2).trans (by omega)
  have hi2 : i2 ≤ i := (le_max_right i1 i2).trans (by omega)
  obtain ⟨j, rfl⟩ : ∃ j, i = j + 1 := ⟨i - 1, by omega⟩
  constructor
  · have := abs_sub_le (T (j + 1)) (p.top.T (fun _ => c) (j + 1)) (c / (p.l + p.e * p.h))
    have := (a _ hin).1
    have := k1 _ hi1
    linarith
  · have := abs_sub_le (U (j + 1)) (p.topU (fun _ => c) (j + 1)) (p.h * c / (p.l + p.e * p.h))
    have : |U (j + 1) - p.topU (fun _ => c) (j + 1)| < ε / 2 := b j hin
    have := k2 _ hi2
    linarith

omit L in
/-- Concrete case: default parameters with `a = 0.01` and a lower layer of any depth run for 10 years; the one-layer
object of `C104_limit_object` runs too. -/
example : (∃ S, OneLayerEq TLPar.default.C TLPar.default.l 0.01 (TLPar.default.e * TLPar.default.h) TLPar.default.dt 10
      (fun i => (i : ℝ)) S ∧ 0 < S 2) ∧
    (∃ m : TLM U0 XR, TLM.Reachable U0.reg m ∧
      m.Phys U0.reg { TLPar.default with a := 0.01, l := TLPar.default.l + TLPar.default.e * TLPar.default.h, h := 0 } ∧
      ∃ d T TD U, IsForcing U0.reg d 10 (fun i => (i : ℝ)) ∧ TLM.Produces U0.reg m d 10 T TD U) ∧
    ∀ D : ℝ, 0 < D → ∃ m : TLM U0 XR, TLM.Reachable U0.reg m ∧ m.Phys U0.reg { TLPar.default with a := 0.01, D := D } ∧
      ∃ d T TD U, IsForcing U0.reg d 10 (fun i => (i : ℝ)) ∧ TLM.Produces U0.reg m d 10 T TD U := by
  refine ⟨⟨_, TLPar.oneLayer_top (p := { TLPar.default with a := 0.01 }) (by norm_num [TLPar.default])
    (by norm_num [TLPar.default]) 10 (fun i => (i : ℝ)), ?_⟩, ?_, fun D hD => ?_⟩
  · rw [TLPar.top_T_succ, TLPar.top_T_succ]; norm_num [TLPar.default]
  · obtain ⟨m, h1, h2, h3⟩ := TLM.any_run U0.lawful
      { TLPar.default with a := 0.01, l := TLPar.default.l + TLPar.default.e * TLPar.default.h, h := 0 }
      (by constructor <;> norm_num [TLPar.default]) (n := 10) (by norm_num) (fun i => (i : ℝ))
    exact ⟨m, h1, h2, _, _, _, _, forcing_exists _ _, h3⟩
  · obtain ⟨m, h1, h2, h3⟩ := TLM.any_run U0.lawful { TLPar.default with a := 0.01, D := D }
      (by constructor <;> norm_num [TLPar.default, hD.ne']) (n := 10) (by norm_num) (fun i => (i : ℝ))
    exact ⟨m, h1, h2, _, _, _, _, forcing_exists _ _, h3⟩

omit L in
/-- Concrete case for C104_rate and C104_uptake: the default parameters, with a lower layer of any depth from the
default on. -/
example (D : ℝ) (hD : TLPar.default.D ≤ D) : TLPar.Resolved { TLPar.default with D := D } ∧
    TLPar.default.dt * (TLPar.default.l + TLPar.default.e * TLPar.default.h) < 2 * TLPar.default.C ∧
    ∃ m : TLM U0 XR, TLM.Reachable U0.reg m ∧ m.Phys U0.reg { TLPar.default with D := D } ∧
      ∃ d T TD U, IsForcing U0.reg d 100 (fun _ => 4) ∧ TLM.Produces U0.reg m d 100 T TD U := by
  have hd : TLPar.default.D = 1200 * (1000 * 4181) := by norm_num [TLPar.default]
  have hr : TLPar.Resolved { TLPar.default with D := D } := by
    constructor <;> norm_num [TLPar.default] at * <;> linarith
  refine ⟨hr, by norm_num [TLPar.default], ?_⟩
  obtain ⟨m, h1, h2, h3⟩ := TLM.any_run U0.lawful { TLPar.default with D := D } hr.ok (n := 100) (by norm_num) (fun _ => 4)
  exact ⟨m, h1, h2, _, _, _, _, forcing_exists _ _, h3⟩

/-! ## C105 How the timescales depend on the parameters -/

private theorem times {m : TLM N XR} {p : TLPar} (hm : m.Phys R p) (hp : p.Pos) (ha : p.a = 0) {r : TLM.IRParams N XR}
    (hr : m.getImpulseResponseParameters R = .ok r) {d1 d2 : ℝ} (h1 : IsNum R r.d1 R.s d1) (h2 : IsNum R r.d2 R.s d2) :
    d1 = p.tau1 ∧ d2 = p.tau2 := by
  obtain ⟨r', e, -, -, -, -, i1, i2⟩ := TLM.getIR_phys L hm hp ha
  rw [hr] at e
  cases e
  exact ⟨h1.inj i1, h2.inj i2⟩

/-- A deeper lower layer lengthens both timescales reported by `get_impulse_response_parameters`. -/
theorem C105_dl {m m' : TLM N XR} {p : TLPar} {D' : ℝ} (hm : m.Phys R p) (hm' : m'.Phys R { p with D := D' })
    (hp : p.Pos) (ha : p.a = 0) (hlt : p.D < D') {r r' : TLM.IRParams N XR}
    (hr : m.getImpulseResponseParameters R = .ok r) (hr' : m'.getImpulseResponseParameters R = .ok r')
    {d1 d2 d1' d2' : ℝ} (h1 : IsNum R r.d1 R.s d1) (h2 : IsNum R r.d2 R.s d2) (h1' : IsNum R r'.d1 R.s d1')
    (h2' : IsNum R r'.d2 R.s d2') : d1 < d1' ∧ d2 < d2' := by
  obtain ⟨rfl, rfl⟩ := times L hm hp ha hr h1 h2
  obtain ⟨rfl, rfl⟩ := times L hm' ⟨hp.C, hp.D.trans hlt, hp.l, hp.e, hp.h, hp.dt⟩ ha hr' h1' h2'
  exact hp.tau_D hlt

/-- A deeper upper layer lengthens both timescales too; as long as it stays the faster layer
(`C' / (lambda0 + efficacy eta) ≤ C_D / eta`) the slow one by a smaller factor than the fast one. -/
theorem C105_du {m m' : TLM N XR} {p : TLPar} {C' : ℝ} (hm : m.Phys R p) (hm' : m'.Phys R { p with C := C' })
    (hp : p.Pos) (ha : p.a = 0) (hlt : p.C < C') {r r' : TLM.IRParams N XR}
    (hr : m.getImpulseResponseParameters R = .ok r) (hr' : m'.getImpulseResponseParameters R = .ok r')
    {d1 d2 d1' d2' : ℝ} (h1 : IsNum R r.d1 R.s d1) (h2 : IsNum R r.d2 R.s d2) (h1' : IsNum R r'.d1 R.s d1')
    (h2' : IsNum R r'.d2 R.s d2') :
    d1 < d1' ∧ d2 < d2' ∧ (C' / (p.l + p.e * p.h) ≤ p.D / p.h → d2' / d2 < d1' / d1) := by
  have hp' : TLPar.Pos { p with C := C' } := ⟨hp.C.trans hlt, hp.D, hp.l, hp.e, hp.h, hp.dt⟩
  obtain ⟨rfl, rfl⟩ := times L hm hp ha hr h1 h2
  obtain ⟨rfl, rfl⟩ := times L hm' hp' ha hr' h1' h2'
  refine ⟨(hp.tau_C hlt).1, (hp.tau_C hlt).2, fun hf => ?_⟩
  have k := hp.tau_C_ratio hlt hf
  rw [div_lt_div_iff₀ hp'.tau1_pos hp.tau1_pos] at k
  rw [div_lt_div_iff₀ hp.tau2_pos hp.tau1_pos]
  linarith

/-- A stronger feedback shortens both timescales. -/
theorem C105_lambda0 {m m' : TLM N XR} {p : TLPar} {l' : ℝ} (hm : m.Phys R p) (hm' : m'.Phys R { p with l := l' })
    (hp : p.Pos) (ha : p.a = 0) (hlt : p.l < l') {r r' : TLM.IRParams N XR}
    (hr : m.getImpulseResponseParameters R = .ok r) (hr' : m'.getImpulseResponseParameters R = .ok r')
    {d1 d2 d1' d2' : ℝ} (h1 : IsNum R r.d1 R.s d1) (h2 : IsNum R r.d2 R.s d2) (h1' : IsNum R r'.d1 R.s d1')
    (h2' : IsNum R r'.d2 R.s d2') : d1' < d1 ∧ d2' < d2 := by
  obtain ⟨rfl, rfl⟩ := times L hm hp ha hr h1 h2
  obtain ⟨rfl, rfl⟩ := times L hm' ⟨hp.C, hp.D, hp.l.trans hlt, hp.e, hp.h, hp.dt⟩ ha hr' h1' h2'
  exact hp.tau_l hlt

/-- Stronger heat exchange shortens both timescales. -/
theorem C105_eta {m m' : TLM N XR} {p : TLPar} {h' : ℝ} (hm : m.Phys R p) (hm' : m'.Phys R { p with h := h' })
    (hp : p.Pos) (ha : p.a = 0) (hlt : p.h < h') {r r' : TLM.IRParams N XR}
    (hr : m.getImpulseResponseParameters R = .ok r) (hr' : m'.getImpulseResponseParameters R = .ok r')
    {d1 d2 d1' d2' : ℝ} (h1 : IsNum R r.d1 R.s d1) (h2 : IsNum R r.d2 R.s d2) (h1' : IsNum R r'.d1 R.s d1')
    (h2' : IsNum R r'.d2 R.s d2') : d1' < d1 ∧ d2' < d2 := by
  obtain ⟨rfl, rfl⟩ := times L hm hp ha hr h1 h2
  obtain ⟨rfl, rfl⟩ := times L hm' ⟨hp.C, hp.D, hp.l, hp.e, hp.h.trans hlt, hp.dt⟩ ha hr' h1' h2'
  exact hp.tau_h hlt

/-- A larger efficacy spreads the timescales: the fast one gets shorter, the slow one longer. -/
theorem C105_efficacy {m m' : TLM N XR} {p : TLPar} {e' : ℝ} (hm : m.Phys R p) (hm' : m'.Phys R { p with e := e' })
    (hp : p.Pos) (ha : p.a = 0) (hlt : p.e < e') {r r' : TLM.IRParams N XR}
    (hr : m.getImpulseResponseParameters R = .ok r) (hr' : m'.getImpulseResponseParameters R = .ok r')
    {d1 d2 d1' d2' : ℝ} (h1 : IsNum R r.d1 R.s d1) (h2 : IsNum R r.d2 R.s d2) (h1' : IsNum R r'.d1 R.s d1')
    (h2' : IsNum R r'.d2 R.s d2') : d1' < d1 ∧ d2 < d2' := by
  obtain ⟨rfl, rfl⟩ := times L hm hp ha hr h1 h2
  obtain ⟨rfl, rfl⟩ := times L hm' ⟨hp.C, hp.D, hp.l, hp.e.trans hlt, hp.h, hp.dt⟩ ha hr' h1' h2'
  exact hp.tau_e hlt

/-- Where the timescales lie.  The fast one is shorter, and the slow one longer, than each of: the response time of
the upper layer over a fixed lower layer, that of the lower layer under a fixed upper one, and that of both layers
moving together.  In a deep lower layer the slow timescale grows at least in proportion to its heat capacity, the
fast one approaches the first of those response times and its coefficient `q1` approaches
`1 / (lambda0 + efficacy eta)`. -/
theorem C105_bounds {m : TLM N XR} {p : TLPar} (hm : m.Phys R p) (hp : p.Pos) (ha : p.a = 0) :
    ∃ r, m.getImpulseResponseParameters R = .ok r ∧ ∃ q1 d1 d2 : ℝ, IsNum R r.q1 R.cwm2 q1 ∧ IsNum R r.d1 R.s d1 ∧
      IsNum R r.d2 R.s d2 ∧
      (d1 < p.C / (p.l + p.e * p.h) ∧ p.C / (p.l + p.e * p.h) < d2) ∧ (d1 < p.D / p.h ∧ p.D / p.h < d2) ∧
      (d1 < (p.C + p.e * p.D) / p.l ∧ (p.C + p.e * p.D) / p.l < d2) ∧
      p.D * (p.l + p.e * p.h) / (p.l * p.h) < d2 ∧ p.C / (p.l + p.e * p.h + p.C * p.h / p.D) < d1 ∧
      (2 * p.C * p.l * p.h ≤ p.D * (p.l + p.e * p.h) ^ 2 → q1 < 1 / (p.l + p.e * p.h) ∧
        1 / (p.l + p.e * p.h) - 4 * p.C * p.h / ((p.l + p.e * p.h) ^ 2 * p.D) ≤ q1) := by
  obtain ⟨r, e, ph, -, -, -, i1, i2⟩ := TLM.getIR_phys L hm hp ha
  refine ⟨r, e, p.q1, p.tau1, p.tau2, ph.q1, i1, i2, hp.upper_between, hp.lower_between, hp.total_between,
    hp.deep_tau.2, hp.deep_tau.1, fun hd => ?_⟩
  exact ⟨(hp.deep_q hd).2, (hp.deep_q hd).1⟩

omit L in
/-- Concrete case for C105: `TwoLayerModel()` and every object that differs from it in one parameter; the default
parameters meet the conditions of `C105_du` (for `du` doubled) and `C105_bounds`. -/
example : TLPar.default.Pos ∧ TLPar.default.a = 0 ∧
    2 * TLPar.default.C / (TLPar.default.l + TLPar.default.e * TLPar.default.h) ≤ TLPar.default.D / TLPar.default.h ∧
    2 * TLPar.default.C * TLPar.default.l * TLPar.default.h ≤
      TLPar.default.D * (TLPar.default.l + TLPar.default.e * TLPar.default.h) ^ 2 ∧
    ∀ p : TLPar, p.Pos → p.a = 0 → ∃ m : TLM U0 XR, TLM.Reachable U0.reg m ∧ m.Phys U0.reg p ∧
      ∃ r d1 d2, m.getImpulseResponseParameters U0.reg = .ok r ∧ IsNum U0.reg r.d1 U0.reg.s d1 ∧
        IsNum U0.reg r.d2 U0.reg.s d2 := by
  refine ⟨TLPar.default_pos, rfl, by norm_num [TLPar.default], by norm_num [TLPar.default], fun p hp ha => ?_⟩
  obtain ⟨m, h1, h2⟩ := TLM.exists_phys U0.lawful p
  obtain ⟨r, e, -, -, -, -, i1, i2⟩ := TLM.getIR_phys U0.lawful h2 hp ha
  exact ⟨m, h1, h2, r, _, _, e, i1, i2⟩

end TwoLayer
