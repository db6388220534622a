import Verif.Proofs.Accuracy
import Verif.Proofs.Init
import Verif.Props.TwoLayer
import Verif.Props.ImpulseResponse

/-!
# C66: accuracy with respect to the differential equations

`TwoLayerForced p n f T TD`, `BoxForced q d dt n f y` and `Samples F f dt n δ` (file `Spec/Accuracy.lean`) are in real
numbers only: solutions of the differential equations under a forcing `f t`, and "the driver values `F k` are within
`δ` of `f` during step `k`".
-/

namespace TwoLayer
variable {N : Type} [Fintype N] [DecidableEq N] {R : Registry N XR} (L : R.Lawful)
include L

/-- **C66** (two-layer).  Linear model, positive parameters, step no longer than the fast timescale.  Whatever the
length of the run, the reported upper temperature is within `dt·M/C + δ/l` of the solution of the differential
equations at the same time, and the lower temperature within a similar bound: the error is of first order in the step
and does not accumulate. -/
theorem C66_two_layer {m : TLM N XR} (hm : TLM.Reachable R m) {p : TLPar} (hp : m.Phys R p) (hpos : p.Pos)
    (ha : p.a = 0) (hdt : p.dt ≤ p.tau1) {d : DArg N XR} {n : ℕ} {F : ℕ → ℝ} (hd : IsForcing R d n F)
    {T TD U : ℕ → ℝ} (hrun : TLM.Produces R m d n T TD U) {M δ : ℝ} (hM : ∀ i < n, |F i| ≤ M) (hδ : 0 ≤ δ)
    {f x xD : ℝ → ℝ} (hf : Samples F f p.dt (n - 1) δ) (hx : TwoLayerForced p (n - 1) f x xD) :
    ∀ i < n, |T i - x (i * p.dt)| ≤ p.dt * M / p.C + δ / p.l ∧
      |TD i - xD (i * p.dt)| ≤
        p.dt * M * (|Geo.phi1 p.C p.D p.l p.e p.h| * (Geo.q1 p.C p.D p.l p.e p.h / p.tau1) +
          |Geo.phi2 p.C p.D p.l p.e p.h| * (Geo.q2 p.C p.D p.l p.e p.h / p.tau2)) +
        δ * (|Geo.phi1 p.C p.D p.l p.e p.h| * Geo.q1 p.C p.D p.l p.e p.h +
          |Geo.phi2 p.C p.D p.l p.e p.h| * Geo.q2 p.C p.D p.l p.e p.h) := by
  intro i hi
  obtain ⟨a, b, -⟩ := TLM.produces_val L (TLM.Reachable.coherent R L.toDimensional hm) hp hpos.ok hd hrun i hi
  rw [a, b]
  exact TLPar.accuracy hpos ha hdt (n := n - 1) (fun j hj => hM j (by omega)) ((abs_nonneg _).trans (hM i hi)) hδ hx hf i
    (by omega)

/-- **C66** (two-layer, Lipschitz forcing).  If the drivers are the values at the time points of a forcing that changes
by at most `K` per second, the error of the upper temperature is at most `dt·(M/C + K/l)`. -/
theorem C66_two_layer_lipschitz {m : TLM N XR} (hm : TLM.Reachable R m) {p : TLPar} (hp : m.Phys R p) (hpos : p.Pos)
    (ha : p.a = 0) (hdt : p.dt ≤ p.tau1) {d : DArg N XR} {n : ℕ} {f : ℝ → ℝ}
    (hd : IsForcing R d n (fun k => f (k * p.dt))) {T TD U : ℕ → ℝ} (hrun : TLM.Produces R m d n T TD U) {M K : ℝ}
    (hM : ∀ t, |f t| ≤ M) (hK : ∀ s t, |f s - f t| ≤ K * |s - t|) {x xD : ℝ → ℝ} (hx : TwoLayerForced p (n - 1) f x xD) :
    ∀ i < n, |T i - x (i * p.dt)| ≤ p.dt * (M / p.C + K / p.l) := by
  intro i hi
  have hK0 : 0 ≤ K := by
    have := hK 1 0
    rw [sub_zero, abs_one, mul_one] at this
    exact (abs_nonneg _).trans this
  have := (C66_two_layer L hm hp hpos ha hdt hd hrun (M := M) (δ := K * p.dt) (fun i _ => hM _)
    (mul_nonneg hK0 hpos.dt.le) (f := f) (fun k _ t ht => ?_) hx i hi).1
  · calc _ ≤ _ := this
      _ = _ := by ring
  · refine (hK _ _).trans ?_
    gcongr
    rw [abs_le]
    have := hpos.dt
    obtain ⟨h1, h2⟩ := ht
    rw [add_mul] at h2
    exact ⟨by linarith, by linarith⟩

/-- **C66** (impulse response).  The reported box temperatures are within `q1·δ` and `q2·δ` of the response of the boxes
to a forcing that stays within `δ` of the driver values; there is no further time-step error. -/
theorem C66_impulse_response {m : IRM N XR} (hm : IRM.Reachable R m) {p : IRPar} (hp : m.Phys R p) (hok : p.Boxes)
    (hdt : 0 < p.dt) {d : DArg N XR} {n : ℕ} {F : ℕ → ℝ} (hd : IsForcing R d n F)
    {T1 T2 U : ℕ → ℝ} (hrun : IRM.Produces R m d n T1 T2 U) {δ : ℝ} (hδ : 0 ≤ δ)
    {f y1 y2 : ℝ → ℝ} (hf : Samples F f p.dt (n - 1) δ) (h1 : BoxForced p.q1 p.d1 p.dt (n - 1) f y1)
    (h2 : BoxForced p.q2 p.d2 p.dt (n - 1) f y2) :
    ∀ i < n, |T1 i - y1 (i * p.dt)| ≤ p.q1 * δ ∧ |T2 i - y2 (i * p.dt)| ≤ p.q2 * δ := by
  intro i hi
  obtain ⟨a, b⟩ := (IRM.boxes_val L (IRM.Reachable.coherent R hm) hp hd hrun).1 i hi
  rw [a, b, abs_sub_comm, abs_sub_comm (p.T2 F i)]
  exact ⟨h1.sampled hok.d1 hdt hok.q1.le hδ hf i (by omega),
    h2.sampled hok.d2 hdt hok.q2.le hδ hf i (by omega)⟩

omit L in
/-- every twice differentiable path of the lower layer that starts at rest is a solution for some forcing; used for the
concrete cases -/
theorem TwoLayerForced.of_lower {p : TLPar} (hp : p.Pos) (n : ℕ) {x v w : ℝ → ℝ} (hx : ∀ t, HasDerivAt x (v t) t)
    (hv : ∀ t, HasDerivAt v (w t) t) (hx0 : x 0 = 0) (hv0 : v 0 = 0) :
    TwoLayerForced p n (fun t => p.C * (v t + p.D / p.h * w t) + p.l * (x t + p.D / p.h * v t) +
      p.e * p.h * (p.D / p.h * v t)) (fun t => x t + p.D / p.h * v t) x := by
  have hh := hp.h.ne'
  have hX : ∀ t, HasDerivAt (fun t => x t + p.D / p.h * v t) (v t + p.D / p.h * w t) t := fun t =>
    (hx t).add ((hv t).const_mul _)
  refine ⟨by simp [hx0, hv0], fun t _ => (hX t).continuousAt.continuousWithinAt,
    fun t _ => (hx t).continuousAt.continuousWithinAt, fun k _ t _ => ⟨_, _, hX t, hx t, by ring, ?_⟩⟩
  field_simp
  ring

omit L in
/-- a one-year step is shorter than the fast timescale of the default model -/
theorem TLPar.default_dt_le : TLPar.default.dt ≤ TLPar.default.tau1 := by
  have hr := TLPar.default_pos.rates
  have t1 := TLPar.default_pos.tau1_pos
  have t2 := TLPar.default_pos.tau2_pos
  have h2 : 0 < 1 / TLPar.default.tau2 := by positivity
  have hb : (TLPar.default.l + TLPar.default.e * TLPar.default.h) / TLPar.default.C + TLPar.default.h / TLPar.default.D ≤
      1 / TLPar.default.dt := by norm_num [TLPar.default]
  have h1 : 1 / TLPar.default.tau1 ≤ 1 / TLPar.default.dt := by linarith
  exact (one_div_le_one_div t1 TLPar.default_pos.dt).mp h1

/-- Concrete case for C66: the default two-layer model over 200 years, driven by the yearly values of the smooth forcing
that warms the deep ocean along `t ↦ (t/10⁹)²`. -/
example : ∃ (f x xD : ℝ → ℝ) (m : TLM U0 XR) (T TD U : ℕ → ℝ), TLM.Reachable U0.reg m ∧ m.Phys U0.reg TLPar.default ∧
    TLPar.default.dt ≤ TLPar.default.tau1 ∧ xD 1000000000 = 1 ∧
    TLM.Produces U0.reg m (.qty ⟨1, series 200 fun k => f (k * TLPar.default.dt)⟩ U0.reg.wm2) 200 T TD U ∧
    IsForcing U0.reg (.qty ⟨1, series 200 fun k => f (k * TLPar.default.dt)⟩ U0.reg.wm2) 200
      (fun k => f (k * TLPar.default.dt)) ∧ TwoLayerForced TLPar.default 199 f x xD := by
  have hx : ∀ t : ℝ, HasDerivAt (fun t : ℝ => (t / 1000000000) ^ 2) (2 * t / 1000000000 ^ 2) t := fun t => by
    have := ((hasDerivAt_id t).div_const 1000000000).pow 2
    refine this.congr_deriv ?_
    simp; ring
  have hv : ∀ t : ℝ, HasDerivAt (fun t : ℝ => 2 * t / 1000000000 ^ 2) (2 / 1000000000 ^ 2) t := fun t => by
    have := ((hasDerivAt_id t).const_mul 2).div_const (1000000000 ^ 2)
    refine this.congr_deriv ?_
    simp
  have hs := TwoLayerForced.of_lower TLPar.default_pos 199 hx hv (by norm_num) (by norm_num)
  obtain ⟨m, h1, h2, h3⟩ := TLM.any_run U0.lawful TLPar.default TLPar.default_ok (n := 200) (by norm_num)
    (fun k => (fun t => TLPar.default.C * (2 * t / 1000000000 ^ 2 + TLPar.default.D / TLPar.default.h * (2 / 1000000000 ^ 2)) +
      TLPar.default.l * ((t / 1000000000) ^ 2 + TLPar.default.D / TLPar.default.h * (2 * t / 1000000000 ^ 2)) +
      TLPar.default.e * TLPar.default.h * (TLPar.default.D / TLPar.default.h * (2 * t / 1000000000 ^ 2))) (k * TLPar.default.dt))
  exact ⟨_, _, _, m, _, _, _, h1, h2, TLPar.default_dt_le, by norm_num, h3, forcing_exists _ _, hs⟩

omit L in
/-- the step that contains `t` -/
theorem floor_step {dt : ℝ} (hdt : 0 < dt) {k : ℕ} {t : ℝ} (ht : t ∈ Set.Ioo (k * dt) ((k + 1) * dt)) : ⌊t / dt⌋₊ = k := by
  obtain ⟨h1, h2⟩ := ht
  have h0 : 0 ≤ (k : ℝ) * dt := by positivity
  have : 0 ≤ t := by linarith
  rw [Nat.floor_eq_iff (by positivity)]
  exact ⟨by rw [le_div_iff₀ hdt]; exact h1.le, by rw [div_lt_iff₀ hdt]; exact h2⟩

/-- Concrete case for the impulse response: the default model, drivers `1, …, 50` W/m², and the forcing `1/2` above the
driver throughout each step. -/
example : ∃ (m : IRM U0 XR) (T1 T2 U : ℕ → ℝ) (f y1 y2 : ℝ → ℝ), IRM.Reachable U0.reg m ∧ m.Phys U0.reg IRPar.default ∧
    IRPar.default.Ok ∧ 0 < IRPar.default.dt ∧
    IRM.Produces U0.reg m (.qty ⟨1, series 50 fun k => (k : ℝ) + 1⟩ U0.reg.wm2) 50 T1 T2 U ∧
    Samples (fun k => (k : ℝ) + 1) f IRPar.default.dt 49 (1 / 2) ∧
    BoxForced IRPar.default.q1 IRPar.default.d1 IRPar.default.dt 49 f y1 ∧
    BoxForced IRPar.default.q2 IRPar.default.d2 IRPar.default.dt 49 f y2 := by
  have hdt : 0 < IRPar.default.dt := by norm_num [IRPar.default]
  have hok : IRPar.default.Ok := by constructor <;> norm_num [IRPar.default]
  obtain ⟨m, h1, h2, -, -, -, h3⟩ := IRM.any_run U0.lawful IRPar.default hok (n := 50) (by norm_num) (fun k => (k : ℝ) + 1)
  obtain ⟨y1, a1⟩ := BoxODE.exists IRPar.default.q1 hok.d1.ne' hdt 49 (fun k => (k : ℝ) + 1 + 1 / 2)
  obtain ⟨y2, a2⟩ := BoxODE.exists IRPar.default.q2 (hok.d1.trans hok.d2).ne' hdt 49 (fun k => (k : ℝ) + 1 + 1 / 2)
  refine ⟨m, _, _, _, fun t => (⌊t / IRPar.default.dt⌋₊ : ℝ) + 1 + 1 / 2, y1, y2, h1, h2, hok, hdt, h3, fun k _ t ht => ?_,
    ⟨a1.rest, a1.cont, fun k hk t ht => ?_⟩, ⟨a2.rest, a2.cont, fun k hk t ht => ?_⟩⟩
  · simp only [floor_step hdt ht]; norm_num
  · simp only [floor_step hdt ht]; exact a1.ode k hk t ht
  · simp only [floor_step hdt ht]; exact a2.ode k hk t ht

end TwoLayer
