import Verif.Proofs.Tipping
import Verif.Proofs.AccuracyState
import Verif.Props.Sensitivity

/-!
# C89–C91: state-dependent feedback below the tipping point; efficacy; accuracy

Conventions as in `Props/TwoLayer.lean`.
-/

set_option linter.unusedSimpArgs false
set_option linter.unusedSectionVars false

namespace TwoLayer
variable {N : Type} [Fintype N] [DecidableEq N] {R : Registry N XR} (L : R.Lawful)
include L

private theorem val {m : TLM N XR} (hm : TLM.Reachable R m) {p : TLPar} (hp : m.Phys R p) (hok : p.Ok)
    {d : DArg N XR} {n : ℕ} {F : ℕ → ℝ} (hd : IsForcing R d n F) {T TD U : ℕ → ℝ}
    (h : TLM.Produces R m d n T TD U) : ∀ i < n, T i = p.T F i ∧ TD i = p.TD F i ∧ U i = p.U F i :=
  TLM.produces_val L (TLM.Reachable.coherent R L.toDimensional hm) hp hok hd h

/-! ## C89 Below the tipping point -/

/-- With `a ≥ 0`, forcing that never leaves `[0, (lambda0 - a θ) θ]`, the range that a warming `θ` can balance, never
takes either temperature outside `[0, θ]`. -/
theorem C89_bounded {m : TLM N XR} (hm : TLM.Reachable R m) {p : TLPar} (hp : m.Phys R p) (hr : p.Resolved)
    (ha : 0 ≤ p.a) {θ : ℝ} (hθ : 0 ≤ θ) {d : DArg N XR} {n : ℕ} {F : ℕ → ℝ} (hd : IsForcing R d n F)
    (hF : ∀ i < n, 0 ≤ F i ∧ F i ≤ (p.l - p.a * θ) * θ) {T TD U : ℕ → ℝ} (h : TLM.Produces R m d n T TD U) :
    ∀ i < n, (0 ≤ T i ∧ T i ≤ θ) ∧ (0 ≤ TD i ∧ TD i ≤ θ) := by
  intro i hi
  obtain ⟨a, b, -⟩ := val L hm hp hr.ok hd h i hi
  rw [a, b]
  exact TLPar.below hr ha hθ hF i hi.le

/-- Either sign of `a` and of the forcing: forcing that stays within `(lambda0 - |a| θ) θ` of zero keeps both
temperatures within `θ` of zero. -/
theorem C89_two_sided {m : TLM N XR} (hm : TLM.Reachable R m) {p : TLPar} (hp : m.Phys R p) (hr : p.Resolved)
    {θ : ℝ} (hθ : 0 ≤ θ) (hup : p.dt * (p.l + 2 * |p.a| * θ + p.e * p.h) ≤ p.C) {d : DArg N XR} {n : ℕ} {F : ℕ → ℝ}
    (hd : IsForcing R d n F) (hF : ∀ i < n, |F i| ≤ (p.l - |p.a| * θ) * θ) {T TD U : ℕ → ℝ}
    (h : TLM.Produces R m d n T TD U) : ∀ i < n, |T i| ≤ θ ∧ |TD i| ≤ θ := by
  intro i hi
  obtain ⟨a, b, -⟩ := val L hm hp hr.ok hd h i hi
  rw [a, b]
  exact TLPar.bounded_state hr.C hr.D hr.e hr.h hr.dt hθ le_rfl hup hr.lower hF i hi.le

/-- With `a > 0`, constant forcing `c` up to and including `lambda0² / (4 a)`: both temperatures settle at the smaller
root of `(lambda0 - a x) x = c` and heat uptake at 0.  How long that takes does not depend on the length of the
run. -/
theorem C89_settles {m : TLM N XR} (hm : TLM.Reachable R m) {p : TLPar} (hp : m.Phys R p) (hr : p.Resolved)
    (ha : 0 < p.a) (hh : 0 < p.h) {c : ℝ} (h0 : 0 ≤ c) (hc : c ≤ p.l ^ 2 / (4 * p.a)) {ε : ℝ} (hε : 0 < ε) :
    ∃ x : ℝ, (p.l - p.a * x) * x = c ∧ 0 ≤ x ∧ x ≤ p.l / (2 * p.a) ∧
    ∃ i₀ : ℕ, ∀ d n T TD U, IsForcing R d n (fun _ => c) → TLM.Produces R m d n T TD U →
      ∀ i, i₀ ≤ i → i < n → |T i - x| < ε ∧ |TD i - x| < ε ∧ |U i| < ε := by
  obtain ⟨h1, h2, h3⟩ := TLPar.settles hr ha hh h0 hc
  obtain ⟨l0, l1, -⟩ := TLPar.low_spec ha hr.l h0 hc
  refine ⟨p.low c, l1, l0, ?_, ?_⟩
  · rw [TLPar.low]
    gcongr
    linarith [Real.sqrt_nonneg (p.l ^ 2 - 4 * p.a * c)]
  obtain ⟨i1, k1⟩ := Metric.tendsto_atTop.mp h1 ε hε
  obtain ⟨i2, k2⟩ := Metric.tendsto_atTop.mp h2 ε hε
  obtain ⟨i3, k3⟩ := Metric.tendsto_atTop.mp h3 ε hε
  refine ⟨max i1 (max i2 i3), fun d n T TD U hd h i hi hin => ?_⟩
  obtain ⟨a, b, e⟩ := val L hm hp hr.ok hd h i hin
  simp only [max_le_iff] at hi
  have k3 := k3 i hi.2.2
  rw [Real.dist_eq, sub_zero] at k3
  rw [a, b, e]
  exact ⟨k1 i hi.1, k2 i hi.2.1, k3⟩

omit L in
/-- Concrete case: default parameters with `a = 0.1 W/m²/K²`; `θ = 4`; 3 W/m² lies below `lambda0²/(4a) ≈ 3.886`. -/
example : TLPar.Resolved { TLPar.default with a := 0.1 } ∧ (0 : ℝ) < TLPar.default.h ∧
    (3 : ℝ) ≤ (TLPar.default.l - 0.1 * 4) * 4 ∧ (3 : ℝ) ≤ (TLPar.default.l - |(0.1 : ℝ)| * 4) * 4 ∧
    TLPar.default.dt * (TLPar.default.l + 2 * |(0.1 : ℝ)| * 4 + TLPar.default.e * TLPar.default.h) ≤ TLPar.default.C ∧ (3 : ℝ) ≤ TLPar.default.l ^ 2 / (4 * 0.1) ∧
    ∃ m : TLM U0 XR, TLM.Reachable U0.reg m ∧ m.Phys U0.reg { TLPar.default with a := 0.1 } ∧ ∃ d T TD U,
      IsForcing U0.reg d 1000 (fun _ => (3 : ℝ)) ∧ TLM.Produces U0.reg m d 1000 T TD U := by
  refine ⟨by constructor <;> norm_num [TLPar.default], by norm_num [TLPar.default], by norm_num [TLPar.default],
    by rw [abs_of_pos (by norm_num)]; norm_num [TLPar.default], by rw [abs_of_pos (by norm_num)]; norm_num [TLPar.default],
    by norm_num [TLPar.default], ?_⟩
  obtain ⟨m, h1, h2, h3⟩ := TLM.any_run U0.lawful { TLPar.default with a := 0.1 }
    (by constructor <;> norm_num [TLPar.default]) (n := 1000) (by norm_num) (fun _ => (3 : ℝ))
  exact ⟨m, h1, h2, _, _, _, _, forcing_exists _ _, h3⟩

/-! ## C90 Efficacy -/

/-- Raising the efficacy of deep-ocean heat uptake, everything else equal, never raises either temperature under
non-negative forcing that never decreases (any `a ≥ 0`). -/
theorem C90_efficacy {m m' : TLM N XR} (hm : TLM.Reachable R m) (hm' : TLM.Reachable R m') {p : TLPar} {e' : ℝ}
    (hp : m.Phys R p) (hp' : m'.Phys R { p with e := e' }) (hr : TLPar.Resolved { p with e := e' }) (he : 0 ≤ p.e)
    (hee : p.e ≤ e') (ha : 0 ≤ p.a) {d : DArg N XR} {n : ℕ} {F : ℕ → ℝ} (hd : IsForcing R d n F) (h0 : 0 ≤ F 0)
    (hF : ∀ i, i + 1 < n → F i ≤ F (i + 1)) {T TD U T' TD' U' : ℕ → ℝ} (h : TLM.Produces R m d n T TD U)
    (h' : TLM.Produces R m' d n T' TD' U') : ∀ i < n, T' i ≤ T i ∧ TD' i ≤ TD i := by
  intro i hi
  obtain ⟨a, b, -⟩ := val L hm hp ⟨hr.C.ne', hr.D.ne', hr.dt.ne'⟩ hd h i hi
  obtain ⟨a', b', -⟩ := val L hm' hp' hr.ok hd h' i hi
  rw [a, b, a', b']
  exact TLPar.anti_e hr he hee ha h0 hF i hi.le

omit L in
/-- Concrete case: efficacy 1 and 1.3, a ramp. -/
example : TLPar.Resolved { TLPar.default with e := 1.3 } ∧ TLPar.default.e ≤ 1.3 ∧
    ∃ m m' : TLM U0 XR, TLM.Reachable U0.reg m ∧ TLM.Reachable U0.reg m' ∧
    m.Phys U0.reg TLPar.default ∧ m'.Phys U0.reg { TLPar.default with e := 1.3 } ∧
    ∃ d T TD U T' TD' U', IsForcing U0.reg d 10 (fun i => (i : ℝ)) ∧ TLM.Produces U0.reg m d 10 T TD U ∧
      TLM.Produces U0.reg m' d 10 T' TD' U' := by
  refine ⟨by constructor <;> norm_num [TLPar.default], by norm_num [TLPar.default], ?_⟩
  obtain ⟨m, h1, h2, h3⟩ := TLM.any_run U0.lawful TLPar.default TLPar.default_ok (n := 10) (by norm_num) (fun i => (i : ℝ))
  obtain ⟨m', h1', h2', h3'⟩ := TLM.any_run U0.lawful { TLPar.default with e := 1.3 }
    (by constructor <;> norm_num [TLPar.default]) (n := 10) (by norm_num) (fun i => (i : ℝ))
  exact ⟨m, m', h1, h1', h2, h2', _, _, _, _, _, _, _, forcing_exists _ _, h3, h3'⟩

/-! ## C91 Accuracy with state-dependent feedback -/

/-- `x`, `xD` solve the two-layer differential equations with state-dependent feedback (either sign of `a`) from rest
under a forcing `f t` that stays within `δ` of the driver values during each step.  If driver and forcing stay within
the range that a warming or cooling `θ` can balance, below the tipping point, then the reported temperatures stay
within a bound of first order in the time step, plus a multiple of `δ`, of the solution, whatever the length of the
run.  Here `Kx` and `KD` bound the rates of change of the two layers. -/
theorem C91_accuracy {m : TLM N XR} (hm : TLM.Reachable R m) {p : TLPar} (hp : m.Phys R p) (hr : p.Resolved)
    {θ δ : ℝ} (hθ : 0 ≤ θ) (hδ : 0 ≤ δ) (hμ : 2 * |p.a| * θ < p.l)
    (hup : p.dt * (p.l + 2 * |p.a| * θ + p.e * p.h) ≤ p.C) {d : DArg N XR} {n : ℕ} {F : ℕ → ℝ}
    (hd : IsForcing R d n F) (hF : ∀ i < n, |F i| ≤ (p.l - |p.a| * θ) * θ) {T TD U : ℕ → ℝ}
    (h : TLM.Produces R m d n T TD U) {f x xD : ℝ → ℝ} (hf : ∀ t, 0 < t → t < (n - 1 : ℕ) * p.dt → |f t| ≤ (p.l - |p.a| * θ) * θ)
    (hs : Samples F f p.dt (n - 1) δ) (hx : TwoLayerStateForced p (n - 1) f x xD) {Kx KD : ℝ}
    (hKx : Kx = 2 * (p.l + p.e * p.h) * θ / p.C) (hKD : KD = 2 * p.h * θ / p.D) :
    ∀ i < n,
      |T i - x (i * p.dt)| ≤
        (δ + p.dt * ((p.l + 2 * |p.a| * θ) * Kx + 2 * (p.e * p.h) * (Kx + KD))) / (p.l - 2 * |p.a| * θ) ∧
      |TD i - xD (i * p.dt)| ≤
        (δ + p.dt * ((p.l + 2 * |p.a| * θ) * Kx + 2 * (p.e * p.h) * (Kx + KD))) / (p.l - 2 * |p.a| * θ) +
          p.dt * (Kx + KD) := by
  intro i hi
  obtain ⟨a, b, -⟩ := val L hm hp hr.ok hd h i hi
  rw [a, b]
  have hμ' : 0 < p.l - 2 * |p.a| * θ := by linarith
  have hC := hr.C; have hD := hr.D; have hdt := hr.dt
  refine TLPar.accuracy_state hr.C hr.D hr.e hr.h hr.l.le hr.dt hθ hδ le_rfl hμ' hup hr.lower (n := n - 1)
    (fun k hk => hF k (by omega)) (fun k hk t ht => ?_) hs hx ?_ ?_ ?_ i (by omega)
  · have h0 : 0 ≤ (k : ℝ) * p.dt := by positivity
    have hkn : (k + 1 : ℝ) ≤ (n - 1 : ℕ) := by exact_mod_cast hk
    exact hf t (lt_of_le_of_lt h0 ht.1) (lt_of_lt_of_le ht.2 (by gcongr))
  · rw [hKx]; field_simp; exact le_rfl
  · rw [hKD]; field_simp; exact le_rfl
  · rw [mul_div_cancel₀ _ hμ'.ne']

omit L in
/-- every twice differentiable path of the lower layer that starts at rest is a solution for some forcing; used for the
concrete case -/
theorem TwoLayerStateForced.of_lower {p : TLPar} (hh : p.h ≠ 0) (n : ℕ) {x v w : ℝ → ℝ} (hx : ∀ t, HasDerivAt x (v t) t)
    (hv : ∀ t, HasDerivAt v (w t) t) (hx0 : x 0 = 0) (hv0 : v 0 = 0) :
    TwoLayerStateForced p n (fun t => p.C * (v t + p.D / p.h * w t) +
      (p.l - p.a * (x t + p.D / p.h * v t)) * (x t + p.D / p.h * v t) +
      p.e * p.h * (p.D / p.h * v t)) (fun t => x t + p.D / p.h * v t) x := by
  have hX : ∀ t, HasDerivAt (fun t => x t + p.D / p.h * v t) (v t + p.D / p.h * w t) t := fun t =>
    (hx t).add ((hv t).const_mul _)
  refine ⟨by simp [hx0, hv0], fun t _ => (hX t).continuousAt.continuousWithinAt,
    fun t _ => (hx t).continuousAt.continuousWithinAt, fun k _ t _ => ⟨_, _, hX t, hx t, by ring, ?_⟩⟩
  field_simp
  ring

omit L in
/-- Concrete case: default parameters with `a = 0.1`, `θ = 1`, 30 years, driven by the yearly values of the smooth forcing
that warms the deep ocean along `t ↦ (t/10¹⁰)²`. -/
example : ∃ (p : TLPar) (f x xD : ℝ → ℝ) (m : TLM U0 XR) (T TD U : ℕ → ℝ), TLM.Reachable U0.reg m ∧ m.Phys U0.reg p ∧
    p.Resolved ∧ p.a = 0.1 ∧ 2 * |p.a| * 1 < p.l ∧ p.dt * (p.l + 2 * |p.a| * 1 + p.e * p.h) ≤ p.C ∧
    TLM.Produces U0.reg m (.qty ⟨1, series 30 fun k => f (k * p.dt)⟩ U0.reg.wm2) 30 T TD U ∧
    IsForcing U0.reg (.qty ⟨1, series 30 fun k => f (k * p.dt)⟩ U0.reg.wm2) 30 (fun k => f (k * p.dt)) ∧
    (∀ i < 30, |f ((i : ℕ) * p.dt)| ≤ (p.l - |p.a| * 1) * 1) ∧
    (∀ t, 0 < t → t < (30 - 1 : ℕ) * p.dt → |f t| ≤ (p.l - |p.a| * 1) * 1) ∧
    Samples (fun k => f (k * p.dt)) f p.dt (30 - 1) 1 ∧ TwoLayerStateForced p (30 - 1) f x xD ∧ xD 10000000000 = 1 := by
  have hx : ∀ t : ℝ, HasDerivAt (fun t : ℝ => (t / 10000000000) ^ 2) (2 * t / 10000000000 ^ 2) t := fun t => by
    have := ((hasDerivAt_id t).div_const 10000000000).pow 2
    refine this.congr_deriv ?_
    simp; ring
  have hv : ∀ t : ℝ, HasDerivAt (fun t : ℝ => 2 * t / 10000000000 ^ 2) (2 / 10000000000 ^ 2) t := fun t => by
    have := ((hasDerivAt_id t).const_mul 2).div_const (10000000000 ^ 2)
    refine this.congr_deriv ?_
    simp
  set p : TLPar := { TLPar.default with a := 0.1 } with hpd
  have hpa : |p.a| = 0.1 := by rw [hpd]; exact abs_of_pos (by norm_num)
  have hs := TwoLayerStateForced.of_lower (p := p) (by norm_num [hpd, TLPar.default]) (30 - 1) hx hv (by norm_num) (by norm_num)
  set f : ℝ → ℝ := fun t => p.C * (2 * t / 10000000000 ^ 2 + p.D / p.h * (2 / 10000000000 ^ 2)) +
      (p.l - p.a * ((t / 10000000000) ^ 2 + p.D / p.h * (2 * t / 10000000000 ^ 2))) *
        ((t / 10000000000) ^ 2 + p.D / p.h * (2 * t / 10000000000 ^ 2)) +
      p.e * p.h * (p.D / p.h * (2 * t / 10000000000 ^ 2)) with hfd
  obtain ⟨m, h1, h2, h3⟩ := TLM.any_run U0.lawful p (by constructor <;> norm_num [hpd, TLPar.default]) (n := 30) (by norm_num)
    (fun k => f (k * p.dt))
  have hb : ∀ t, 0 ≤ t → t ≤ 30 * p.dt → 0 ≤ f t ∧ f t ≤ 1 := by
    intro t t0 t1
    rw [hfd]
    norm_num [hpd, TLPar.default] at t1 ⊢
    constructor
    · have : (t / 10000000000) ^ 2 ≤ 1 := by
        rw [sq_le_one_iff₀ (by positivity)]; linarith
      have : 0 ≤ (t / 10000000000) ^ 2 := by positivity
      nlinarith
    · have h5 : (t / 10000000000) ^ 2 ≤ 1 / 100 := by
        have : t / 10000000000 ≤ 1 / 10 := by linarith
        have h0 : 0 ≤ t / 10000000000 := by positivity
        nlinarith
      have : 0 ≤ (t / 10000000000) ^ 2 := by positivity
      nlinarith
  have hdt : 0 < p.dt := by norm_num [hpd, TLPar.default]
  have hl : 1 ≤ (p.l - |p.a| * 1) * 1 := by rw [hpa]; norm_num [hpd, TLPar.default]
  refine ⟨p, f, _, _, m, _, _, _, h1, h2, by constructor <;> norm_num [hpd, TLPar.default], rfl,
    by rw [hpa]; norm_num [hpd, TLPar.default], by rw [hpa]; norm_num [hpd, TLPar.default], h3, forcing_exists _ _,
    fun i hi => ?_, fun t t0 t1 => ?_, fun k hk t ht => ?_, hs, by norm_num⟩
  · have hi' : (i : ℝ) ≤ 30 := by exact_mod_cast hi.le
    obtain ⟨a, b⟩ := hb (i * p.dt) (by positivity) (by gcongr)
    rw [abs_of_nonneg a]; linarith
  · have e : ((30 - 1 : ℕ) : ℝ) = 29 := by norm_num
    rw [e] at t1
    obtain ⟨a, b⟩ := hb t t0.le (by linarith)
    rw [abs_of_nonneg a]; linarith
  · have hk' : (k + 1 : ℝ) ≤ 30 := by exact_mod_cast (by omega : k + 1 ≤ 30)
    have hk0 : (0 : ℝ) ≤ k := by positivity
    obtain ⟨a, b⟩ := hb t (le_trans (by positivity) ht.1.le) (ht.2.le.trans (by gcongr))
    obtain ⟨a', b'⟩ := hb (k * p.dt) (by positivity) (by gcongr; linarith)
    rw [abs_le]
    exact ⟨by linarith, by linarith⟩

end TwoLayer
