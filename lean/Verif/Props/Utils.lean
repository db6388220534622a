import Verif.Model.Utils
import Verif.Proofs.ConvertPhys
import Verif.Props.TwoLayer
import Verif.Props.ImpulseResponse

/-!
# C57: `convert_lambda_to_ecs`
-/

set_option linter.unusedSimpArgs false
set_option linter.unusedSectionVars false

namespace TwoLayer

/-- Arguments that are not Quantities raise TypeError; `lambda_val` is checked first.  A Quantity pair never does. -/
theorem C57_type_errors {N α : Type} [Fintype N] [DecidableEq N] [Arith α] (l f : Qty N α) :
    (∀ x : Arg N α, convertLambdaToEcs .bare x = .error (.typeError "lambda_val is not a pint.Quantity")) ∧
    convertLambdaToEcs (.qty l) .bare = .error (.typeError "f2x is not a pint.Quantity") ∧
    ∀ s, convertLambdaToEcs (.qty l) (.qty f) ≠ .error (.typeError s) := by
  refine ⟨fun x => rfl, rfl, fun s => ?_⟩
  simp only [convertLambdaToEcs, Qty.div, pyDiv]
  split <;> rintro ⟨⟩

variable {N : Type} [Fintype N] [DecidableEq N] {R : Registry N XR} (L : R.Lawful)
include L

/-- `convert_lambda_to_ecs(l, f)` is `-f / l`, a temperature, in whatever units `l` and `f` are given. -/
theorem C57_value {l f : Qty N XR} {x F : ℝ} (hl : IsNum R l R.wm2c x) (hf : IsNum R f R.wm2 F) (hx : x ≠ 0) :
    ∃ q, convertLambdaToEcs (.qty l) (.qty f) = .ok q ∧ IsNum R q R.degC (-F / x) := by
  obtain ⟨e1, d1⟩ := L.isNum_iff.mp hl
  obtain ⟨e2, d2⟩ := L.isNum_iff.mp hf
  have h1 := L.sc_ne R.wm2
  have h2 := L.sc_ne R.degC
  have hwm : L.sc R.wm2c = L.sc R.wm2 / L.sc R.degC := by rw [← L.sc_sub]; rfl
  refine ⟨L.quant (f.unit - l.unit) (-(F * L.sc R.wm2) / (x * L.sc R.wm2c)), ?_, ?_⟩
  · simp only [convertLambdaToEcs]
    rw [e1, e2, L.neg_mk, L.div_mk _ _ _ _ (mul_ne_zero hx (L.sc_ne _))]
    rfl
  · apply isNum_of_quant L
    · rw [L.dm_sub, d1, d2, show R.wm2c = R.wm2 - R.degC from rfl, L.dm_sub]; abel
    · rw [hwm]; field_simp

/-- Zero feedback raises ZeroDivisionError. -/
theorem C57_zero {l f : Qty N XR} {F : ℝ} (hl : IsNum R l R.wm2c 0) (hf : IsNum R f R.wm2 F) :
    convertLambdaToEcs (.qty l) (.qty f) = .error .zeroDivision := by
  obtain ⟨e1, d1⟩ := L.isNum_iff.mp hl
  obtain ⟨e2, d2⟩ := L.isNum_iff.mp hf
  simp only [convertLambdaToEcs]
  rw [e1, e2, L.neg_mk, zero_mul, L.div_zero_mk]

/-- The conversion is its own inverse: dividing `-f2x` by the sensitivity gives the feedback parameter back. -/
theorem C57_inverse {l f : Qty N XR} {x F : ℝ} (hl : IsNum R l R.wm2c x) (hf : IsNum R f R.wm2 F) (hx : x ≠ 0)
    (hF : F ≠ 0) {q : Qty N XR} (hq : convertLambdaToEcs (.qty l) (.qty f) = .ok q) :
    ∃ l', convertLambdaToEcs (.qty q) (.qty f) = .ok l' ∧ IsNum R l' R.wm2c x := by
  obtain ⟨q', h1, h2⟩ := C57_value L hl hf hx
  rw [hq] at h1; cases h1
  obtain ⟨e1, d1⟩ := L.isNum_iff.mp h2
  obtain ⟨e2, d2⟩ := L.isNum_iff.mp hf
  have h1 := L.sc_ne R.wm2
  have h3 := L.sc_ne R.degC
  have hwm : L.sc R.wm2c = L.sc R.wm2 / L.sc R.degC := by rw [← L.sc_sub]; rfl
  refine ⟨L.quant (f.unit - q.unit) (-(F * L.sc R.wm2) / (-F / x * L.sc R.degC)), ?_, ?_⟩
  · simp only [convertLambdaToEcs]
    rw [e1, e2, L.neg_mk, L.div_mk _ _ _ _ (mul_ne_zero (div_ne_zero (neg_ne_zero.mpr hF) hx) (L.sc_ne _))]
    rfl
  · apply isNum_of_quant L
    · rw [L.dm_sub, d1, d2, show R.wm2c = R.wm2 - R.degC from rfl, L.dm_sub]
    · rw [hwm]; field_simp

/-- `convert_lambda_to_ecs(-lambda0, f2x)` is what both layers of the two-layer model converge to under constant forcing
`f2x` (same hypotheses as C21). -/
theorem C57_two_layer {m : TLM N XR} (hm : TLM.Reachable R m) {p : TLPar} (hp : m.Phys R p) (hpos : p.Pos)
    (ha : p.a = 0) (hdt : p.dt < 2 * p.tau1) {f : Qty N XR} {F : ℝ} (hf : IsNum R f R.wm2 F) :
    ∃ q ecs, convertLambdaToEcs (.qty m.lambda0.neg) (.qty f) = .ok q ∧ IsNum R q R.degC ecs ∧
      ∀ ε > 0, ∃ i₀ : ℕ, ∀ d n T TD U, IsForcing R d n (fun _ => F) → TLM.Produces R m d n T TD U →
        ∀ i, i₀ ≤ i → i < n → |T i - ecs| < ε ∧ |TD i - ecs| < ε := by
  have hl : IsNum R m.lambda0.neg R.wm2c (-p.l) := by
    obtain ⟨e, d⟩ := L.isNum_iff.mp hp.lambda0
    rw [e, L.neg_mk, ← neg_mul]
    exact isNum_of_quant L d rfl
  obtain ⟨q, h1, h2⟩ := C57_value L hl hf (neg_ne_zero.mpr hpos.l.ne')
  rw [neg_div_neg_eq] at h2
  refine ⟨q, _, h1, h2, ?_⟩
  intro ε hε
  obtain ⟨r, K, hr0, hr1, hc⟩ := C21_two_layer L hm hp hpos ha hdt F
  have lim : ∀ M : ℝ, ∃ i₀ : ℕ, ∀ i ≥ i₀, M * r ^ i < ε := by
    intro M
    have := (tendsto_pow_atTop_nhds_zero_of_lt_one hr0 hr1).const_mul M
    rw [mul_zero] at this
    exact Filter.eventually_atTop.mp (this.eventually (gt_mem_nhds hε))
  obtain ⟨i₁, h3⟩ := lim (|F| / p.l)
  obtain ⟨i₂, h4⟩ := lim K
  refine ⟨max i₁ i₂, ?_⟩
  intro d n T TD U hd hP i hi hin
  obtain ⟨g1, g2, -⟩ := hc d n T TD U hd hP i hin
  exact ⟨g1.trans_lt (h3 i ((le_max_left _ _).trans hi)), g2.trans_lt (h4 i ((le_max_right _ _).trans hi))⟩

/-- With the impulse response model's `lambda0 = 1 / (q1 + q2)`, `convert_lambda_to_ecs(-lambda0, f2x)` is what its surface
temperature converges to under constant forcing `f2x`. -/
theorem C57_impulse_response {m : IRM N XR} (hm : IRM.Reachable R m) {p : IRPar} (hp : m.Phys R p) (hok : p.Boxes)
    (hdt : 0 < p.dt) {l f : Qty N XR} {F : ℝ} (hl : IsNum R l R.wm2c (1 / (p.q1 + p.q2))) (hf : IsNum R f R.wm2 F) :
    ∃ q ecs, convertLambdaToEcs (.qty l.neg) (.qty f) = .ok q ∧ IsNum R q R.degC ecs ∧
      ∀ ε > 0, ∃ i₀ : ℕ, ∀ d n T1 T2 U, IsForcing R d n (fun _ => F) → IRM.Produces R m d n T1 T2 U →
        ∀ i, i₀ ≤ i → i < n → |(T1 i + T2 i) - ecs| < ε := by
  have hs : 0 < p.q1 + p.q2 := add_pos hok.q1 hok.q2
  have hl' : IsNum R l.neg R.wm2c (-(1 / (p.q1 + p.q2))) := by
    obtain ⟨e, d⟩ := L.isNum_iff.mp hl
    rw [e, L.neg_mk, ← neg_mul]
    exact isNum_of_quant L d rfl
  obtain ⟨q, h1, h2⟩ := C57_value L hl' hf (neg_ne_zero.mpr (by positivity))
  refine ⟨q, _, h1, h2, ?_⟩
  intro ε hε
  obtain ⟨i₀, h⟩ := C31_equilibrium L hm hp hok.d1 hok.d2 hdt F hε
  refine ⟨i₀, ?_⟩
  intro d n T1 T2 U hd hP i hi hin
  have := h d n T1 T2 U hd hP i hi hin
  rwa [neg_div_neg_eq, div_div_eq_mul_div, div_one, mul_comm F]

/-- Beware of the sign: applied to the model's own (positive) `lambda0` the result is *minus* the equilibrium warming. -/
theorem C57_sign {m : TLM N XR} {p : TLPar} (hp : m.Phys R p) (hl : 0 < p.l) {f : Qty N XR} {F : ℝ}
    (hf : IsNum R f R.wm2 F) (hF : 0 < F) :
    ∃ q x, convertLambdaToEcs (.qty m.lambda0) (.qty f) = .ok q ∧ IsNum R q R.degC x ∧ x < 0 ∧ x = -(F / p.l) := by
  obtain ⟨q, h1, h2⟩ := C57_value L hp.lambda0 hf hl.ne'
  refine ⟨q, _, h1, h2, ?_, neg_div _ _⟩
  rw [neg_div]
  have := div_pos hF hl
  linarith

omit L in
/-- **C57.** The default `f2x` is 3.74 W/m². -/
theorem C57_default : ∃ f, defaultF2x R = .qty f ∧ IsNum R f R.wm2 3.74 := by
  refine ⟨_, rfl, ?_⟩
  have := isNum_self (R := R) 3.74 R.wm2
  rwa [show (XR.fin 3.74) = Arith.dec 374 2 by simp; norm_num] at this

omit L in
/-- The default `f2x` is 3.74 W/m²; concrete case: default two-layer model, sensitivity 3 K. -/
example : ∃ (m : TLM U0 XR) (f q : Qty U0 XR), TLM.Reachable U0.reg m ∧ m.Phys U0.reg TLPar.default ∧ TLPar.default.Pos ∧
    TLPar.default.a = 0 ∧ TLPar.default.dt < 2 * TLPar.default.tau1 ∧ defaultF2x U0.reg = .qty f ∧
    IsNum U0.reg f U0.reg.wm2 3.74 ∧ convertLambdaToEcs (.qty m.lambda0.neg) (defaultF2x U0.reg) = .ok q ∧
    IsNum U0.reg q U0.reg.degC 3 := by
  obtain ⟨m, h1, h2, -⟩ := TLM.default_run U0.lawful
  have hf : IsNum U0.reg ⟨Arith.dec 374 2, U0.reg.wm2⟩ U0.reg.wm2 3.74 := by
    have := isNum_self (R := U0.reg) 3.74 U0.reg.wm2
    rwa [show (XR.fin 3.74) = Arith.dec 374 2 by simp; norm_num] at this
  have hl : IsNum U0.reg m.lambda0.neg U0.reg.wm2c (-TLPar.default.l) := by
    obtain ⟨e, d⟩ := U0.lawful.isNum_iff.mp h2.lambda0
    rw [e, U0.lawful.neg_mk, ← neg_mul]
    exact isNum_of_quant U0.lawful d rfl
  obtain ⟨q, h3, h4⟩ := C57_value U0.lawful hl hf (neg_ne_zero.mpr TLPar.default_pos.l.ne')
  refine ⟨m, _, q, h1, h2, TLPar.default_pos, rfl, C21_resolved TLPar.default_pos TLPar.default_resolved, rfl, hf, h3, ?_⟩
  convert h4 using 1
  norm_num [TLPar.default]

end TwoLayer
