import Verif.Props.Units
import Verif.Proofs.ConvertPhys

/-!
# C101 The order of the boxes

The constructor insists on `d1 < d2`; the setters do not (C13).  What an object computes whose timescales have been
assigned in the other order, or equal.
-/

set_option linter.unusedSimpArgs false
set_option linter.unusedSectionVars false

namespace TwoLayer

/-- the same two boxes under each other's names -/
def IRPar.swap (p : IRPar) : IRPar := { p with q1 := p.q2, q2 := p.q1, d1 := p.d2, d2 := p.d1 }

namespace Geo
theorem invL_swap (q1 q2 : ℝ) : invL q2 q1 = invL q1 q2 := by unfold invL; rw [add_comm]
theorem invC_swap (q1 q2 d1 d2 : ℝ) : invC q2 q1 d2 d1 = invC q1 q2 d1 d2 := by
  unfold invC; rw [mul_comm d2 d1, add_comm (q2 * d1)]
theorem invD_swap (q1 q2 d1 d2 e : ℝ) : invD q2 q1 d2 d1 e = invD q1 q2 d1 d2 e := by
  unfold invD; rw [invL_swap, invC_swap, add_comm (d2 * _)]
theorem invH_swap (q1 q2 d1 d2 e : ℝ) : invH q2 q1 d2 d1 e = invH q1 q2 d1 d2 e := by
  unfold invH; rw [invD_swap, invL_swap, add_comm (d2 * _)]

/-- the mode parameters in terms of the boxes -/
theorem phi_diff {q1' q2' d1 d2 e : ℝ} (h1 : 0 < q1') (h2 : 0 < q2') (hd1 : 0 < d1) (hd : d1 < d2) (he : 0 < e) :
    invH q1' q2' d1 d2 e *
      (phi2 (invC q1' q2' d1 d2) (invD q1' q2' d1 d2 e) (invL q1' q2') e (invH q1' q2' d1 d2 e) -
        phi1 (invC q1' q2' d1 d2) (invD q1' q2' d1 d2 e) (invL q1' q2') e (invH q1' q2' d1 d2 e)) =
      (d2 - d1) / (e * (q1' * d2 + q2' * d1)) := by
  have hC := invC_pos h1 h2 hd1 hd
  have hD := invD_pos h1 h2 hd1 hd he
  have hl := invL_pos h1 h2
  have hh := invH_pos h1 h2 hd1 hd he
  obtain ⟨t1, t2, -, -⟩ := round_trip_ir h1 h2 hd1 hd he
  have hd2 : 0 < d2 := hd1.trans hd
  have hden : d1 * (invL q1' q2' * q2') + d2 * (invL q1' q2' * q1') ≠ 0 := by positivity
  have hhD : invH q1' q2' d1 d2 e * (d1 * (invL q1' q2' * q2') + d2 * (invL q1' q2' * q1')) = invD q1' q2' d1 d2 e := by
    unfold invH; exact div_mul_cancel₀ _ hden
  rw [phi_sub hC hD hl he hh]
  generalize invC q1' q2' d1 d2 = C at *
  generalize invL q1' q2' = l at *
  generalize invH q1' q2' d1 d2 e = h at *
  generalize invD q1' q2' d1 d2 e = D at *
  have hs : d2 - d1 = C * D / (l * h) * Real.sqrt (delta C D l e h) := by
    rw [← t1, ← t2]; unfold tau1 tau2; field_simp; ring
  rw [hs]
  generalize Real.sqrt (delta C D l e h) = s at *
  subst hhD
  field_simp
  ring
end Geo

variable {N : Type} [Fintype N] [DecidableEq N] {R : Registry N XR}

section
variable (L : R.Lawful)
include L

/-- The equivalent two-layer parameters do not depend on the order of the boxes. -/
theorem C101_two_layer_parameters {m m' : IRM N XR} {p : IRPar} (hp : m.Phys R p) (hp' : m'.Phys R p.swap)
    (hb : p.Boxes) :
    ∃ r r' du dl l h, m.getTwoLayerParameters R = .ok r ∧ m'.getTwoLayerParameters R = .ok r' ∧
      (IsNum R r.du R.m du ∧ IsNum R r'.du R.m du) ∧ (IsNum R r.dl R.m dl ∧ IsNum R r'.dl R.m dl) ∧
      (IsNum R r.lambda0 R.wm2c l ∧ IsNum R r'.lambda0 R.wm2c l) ∧ (IsNum R r.eta R.wm2c h ∧ IsNum R r'.eta R.wm2c h) ∧
      (IsNum R r.efficacy R.one p.e ∧ IsNum R r'.efficacy R.one p.e) ∧ 0 < du ∧ 0 < dl ∧ 0 < l ∧ 0 < h := by
  have hb' : p.swap.Boxes := ⟨hb.q2, hb.q1, hb.d2, hb.d1, hb.ne.symm, hb.e⟩
  obtain ⟨r, hr, k⟩ := IRM.getTL_boxes L hp hb
  obtain ⟨r', hr', k'⟩ := IRM.getTL_boxes L hp' hb'
  have hS := secPerYr_pos
  have hsw : p.swap.toTL = p.toTL := by
    simp only [IRPar.toTL, IRPar.swap, Geo.invC_swap, Geo.invD_swap, Geo.invL_swap, Geo.invH_swap]
  rw [hsw] at k'
  refine ⟨r, r', _, _, _, _, hr, hr', ⟨k.du, k'.du⟩, ⟨k.dl, k'.dl⟩, ⟨k.lambda0, k'.lambda0⟩, ⟨k.eta, k'.eta⟩,
    ⟨k.efficacy, k'.efficacy⟩, ?_, ?_, Geo.invL_pos hb.q1 hb.q2, ?_⟩
  · exact div_pos (Geo.invC_pos' hb.q1 hb.q2 (mul_pos hb.d1 hS) (mul_pos hb.d2 hS)) (by norm_num)
  · exact div_pos (Geo.invD_pos' hb.q1 hb.q2 (mul_pos hb.d1 hS) (mul_pos hb.d2 hS)
      (fun h => hb.ne (mul_right_cancel₀ hS.ne' h)) hb.e) (by norm_num)
  · exact Geo.invH_pos' hb.q1 hb.q2 (mul_pos hb.d1 hS) (mul_pos hb.d2 hS)
      (fun h => hb.ne (mul_right_cancel₀ hS.ne' h)) hb.e

/-- Exchanging the boxes exchanges the two box series and nothing else about the temperatures. -/
theorem C101_temperatures {m m' : IRM N XR} (hm : IRM.Reachable R m) (hm' : IRM.Reachable R m') {p : IRPar}
    (hp : m.Phys R p) (hp' : m'.Phys R p.swap) {d d' : DArg N XR} {n : ℕ} {F : ℕ → ℝ} (hd : IsForcing R d n F)
    (hd' : IsForcing R d' n F) {T1 T2 U T1' T2' U' : ℕ → ℝ} (h : IRM.Produces R m d n T1 T2 U)
    (h' : IRM.Produces R m' d' n T1' T2' U') :
    ∀ i < n, T1' i = T2 i ∧ T2' i = T1 i ∧ T1' i + T2' i = T1 i + T2 i := by
  intro i hi
  obtain ⟨a, b⟩ := (IRM.boxes_val L (IRM.Reachable.coherent R hm) hp hd h).1 i hi
  obtain ⟨a', b'⟩ := (IRM.boxes_val L (IRM.Reachable.coherent R hm') hp' hd' h').1 i hi
  have e1 : p.swap.T1 F i = p.T2 F i := rfl
  have e2 : p.swap.T2 F i = p.T1 F i := rfl
  rw [a, b, a', b', e1, e2]
  exact ⟨rfl, rfl, add_comm _ _⟩

/-- Heat uptake does depend on the order when the efficacy is not 1: an object with the boxes in the wrong order
(`p` is in the right one) runs without complaint and reports `(e-1)/e (d2-d1)/(q1 d2 + q2 d1) (T1 - T2)` too much. -/
theorem C101_uptake {m m' : IRM N XR} (hm : IRM.Reachable R m) (hm' : IRM.Reachable R m') {p : IRPar}
    (hp : m.Phys R p) (hp' : m'.Phys R p.swap) (hok : p.Ok) (hunit : m.q1.unit = R.cwm2) (hunit' : m'.q1.unit = R.cwm2)
    {d d' : DArg N XR} {n : ℕ} {F : ℕ → ℝ} (hd : IsForcing R d n F)
    (hd' : IsForcing R d' n F) {T1 T2 U T1' T2' U' : ℕ → ℝ} (h : IRM.Produces R m d n T1 T2 U)
    (h' : IRM.Produces R m' d' n T1' T2' U') :
    ∀ i, i + 1 < n → U' (i + 1) - U (i + 1) =
      (p.e - 1) / p.e * ((p.d2 - p.d1) / (p.q1 * p.d2 + p.q2 * p.d1)) * (T1 i - T2 i) := by
  intro i hi
  have hb' : p.swap.Boxes := ⟨hok.q2, hok.q1, hok.d2pos, hok.d1, hok.d2.ne', hok.e⟩
  have hκ : IsNum R ⟨.fin 1, m.q1.unit⟩ R.cwm2 1 := by rw [hunit]; exact isNum_self _ _
  have hκ' : IsNum R ⟨.fin 1, m'.q1.unit⟩ R.cwm2 1 := by rw [hunit']; exact isNum_self _ _
  obtain ⟨a1, a2, -⟩ := IRM.produces_val L (IRM.Reachable.coherent R hm) hp hok hκ hd h i (by omega)
  obtain ⟨-, -, a3⟩ := IRM.produces_val L (IRM.Reachable.coherent R hm) hp hok hκ hd h (i + 1) hi
  obtain ⟨-, -, b3⟩ := IRM.produces_val' L (IRM.Reachable.coherent R hm') hp' hb' hκ' hd' h' (i + 1) hi
  have e1 : p.swap.T1 F i = p.T2 F i := rfl
  have e2 : p.swap.T2 F i = p.T1 F i := rfl
  have g1 : p.swap.l = p.l := Geo.invL_swap _ _
  have g2 : p.swap.h = p.h := Geo.invH_swap _ _ _ _ _
  have g3 : p.swap.phi1 = p.phi1 := by
    simp only [IRPar.phi1, g1, g2]; simp only [IRPar.swap, Geo.invC_swap, Geo.invD_swap]
  have g4 : p.swap.phi2 = p.phi2 := by
    simp only [IRPar.phi2, g1, g2]; simp only [IRPar.swap, Geo.invC_swap, Geo.invD_swap]
  have g5 : p.swap.e = p.e := rfl
  rw [a3, b3, IRPar.U_succ, IRPar.U_succ, e1, e2, g1, g2, g3, g4, g5, a1, a2]
  have key : p.h * (p.phi2 - p.phi1) = (p.d2 - p.d1) / (p.e * (p.q1 * p.d2 + p.q2 * p.d1)) :=
    Geo.phi_diff hok.q1 hok.q2 hok.d1 hok.d2 hok.e
  have : (p.e - 1) / p.e * ((p.d2 - p.d1) / (p.q1 * p.d2 + p.q2 * p.d1)) =
      (p.e - 1) * (p.h * (p.phi2 - p.phi1)) := by
    rw [key, mul_comm p.e (_ + _), ← div_div]; ring
  rw [this]; ring
/-- Equal timescales: every step after the first divides by zero unless the efficacy is 1. -/
theorem IRM.nextRndt_equal {m : IRM N XR} {p : IRPar} (hc : m.Coherent R) (hp : m.Phys R p) (h1 : 0 < p.q1)
    (h2 : 0 < p.q2) (h3 : 0 < p.d1) (h4 : p.d1 = p.d2) (h5 : 0 < p.e) (t1 t2 f : ℝ) :
    (p.e = 1 → ∃ x : ℝ, m.calcNextRndt R (.fin t1) (.fin t2) (.fin f) m.efficacyMag = .ok (.fin x)) ∧
    (p.e ≠ 1 → m.calcNextRndt R (.fin t1) (.fin t2) (.fin f) m.efficacyMag = .error .zeroDivision) := by
  obtain ⟨a1, b1⟩ := L.isNum_iff.mp hp.q1
  obtain ⟨a2, b2⟩ := L.isNum_iff.mp hp.q2
  obtain ⟨a3, b3⟩ := L.isNum_iff.mp hp.d1
  obtain ⟨a4, b4⟩ := L.isNum_iff.mp hp.d2
  obtain ⟨a5, b5⟩ := L.isNum_iff.mp hp.efficacy
  have hs := L.sc_pos R.cwm2
  have hy := L.sc_pos R.yr
  have ho : L.sc R.one = 1 := L.sc_zero
  have hdo : L.dm R.one = 0 := L.dm_zero
  have hem : m.efficacyMag = .fin p.e := by rw [hc.efficacyMag]; exact hp.efficacy.magIn
  rw [ho, mul_one] at a5
  have hd2 : 0 < p.d2 := h4 ▸ h3
  have hL := Geo.invL_pos (mul_pos h1 hs) (mul_pos h2 hs)
  have hTL := L.getTL_quant m m.q1.unit m.q2.unit m.d1.unit m.d2.unit m.efficacy.unit (b2.trans b1.symm)
    (b4.trans b3.symm) (b5.trans hdo) (p.q1 * L.sc R.cwm2) (p.q2 * L.sc R.cwm2) (p.d1 * L.sc R.yr)
    (p.d2 * L.sc R.yr) p.e (by positivity) (by positivity) h5.ne' (by positivity) a1 a2 a3 a4 a5
  simp only at hTL
  have hz : Geo.invD (p.q1 * L.sc R.cwm2) (p.q2 * L.sc R.cwm2) (p.d1 * L.sc R.yr) (p.d2 * L.sc R.yr) p.e = 0 := by
    unfold Geo.invD Geo.invC Geo.invL
    rw [← h4]
    field_simp
    ring
  have hC := Geo.invC_pos' (mul_pos h1 hs) (mul_pos h2 hs) (mul_pos h3 hy) (mul_pos hd2 hy)
  rw [hem]
  refine ⟨fun he => ?_, fun he => ?_⟩
  · rw [he]
    exact ⟨_, Registry.Lawful.calcNextRndt_one m hTL rfl t1 t2 f⟩
  · unfold IRM.calcNextRndt
    rw [hTL, ok_bind]
    have hneq : Arith.eq (XR.fin p.e) (Arith.ofNat 1) = false := by simp [he]
    simp only [hneq, Bool.false_eq_true, if_false]
    have hrc : 0 < L.rho * L.cw := mul_pos L.rho_pos L.cw_pos
    have hgeo : ∀ (uu ul um ue uh : Units N) (u l m e h : ℝ), L.dm ue = 0 → L.dm uh = L.dm um → 0 < u → l = 0 →
        geoffroy R (L.quant uu u) (L.quant ul l) (L.quant um m) (L.quant ue e) (L.quant uh h) = .error .zeroDivision := by
      intro uu ul um ue uh u l m e h hue huh hu hl
      have hcr := L.rho_pos; have hcc := L.cw_pos
      unfold geoffroy
      rw [L.heat_mk, L.density_mk]
      simp only [L.mul_mk]
      rw [L.add_mk _ _ _ _ (by rw [L.dm_add, hue, huh, zero_add]), ok_bind, L.div_mk _ _ _ _ (by positivity), ok_bind, hl]
      simp only [zero_mul, Qty.div, pyDiv, Registry.Lawful.quant, zero_div]
      simp [bind, Except.bind]
    rw [hgeo _ _ _ _ _ _ _ _ _ _ (b5.trans hdo) ?_ (by positivity) (by rw [hz, zero_div])]
    · rfl
    · simp only [L.dm_add, L.dm_sub, L.dm_neg, b1, b2, b3, b4, b5, hdo]; abel

/-- Equal timescales: a run of two or more steps succeeds if the efficacy is 1 and raises ZeroDivisionError
otherwise. -/
theorem C101_equal {m : IRM N XR} (hm : IRM.Reachable R m) {p : IRPar} (hp : m.Phys R p) (h1 : 0 < p.q1)
    (h2 : 0 < p.q2) (h3 : 0 < p.d1) (h4 : p.d1 = p.d2) (h5 : 0 < p.e) {d : DArg N XR} {n : ℕ} (hn : 1 < n) {F : ℕ → ℝ}
    (hd : IsForcing R d n F) :
    (p.e = 1 → (IRM.simulate R d m).2 = .ok ()) ∧ (p.e ≠ 1 → (IRM.simulate R d m).2 = .error .zeroDivision) := by
  have hc := IRM.Reachable.coherent R hm
  obtain ⟨vals, u, rfl, hlen, hg, hmF⟩ := hd.good L
  have hsim := IRM.simulate_good R m (hg (by omega))
  have e1 : m.core.deltaTMag = .fin p.dt := by rw [hc.core.dtMag]; exact hp.dt.magIn
  have e2 : m.q1Mag = .fin p.q1 := by rw [hc.q1Mag]; exact hp.q1.magIn
  have e3 : m.q2Mag = .fin p.q2 := by rw [hc.q2Mag]; exact hp.q2.magIn
  have e4 : m.d1Mag = .fin p.d1 := by rw [hc.d1Mag]; exact hp.d1.magIn
  have e5 : m.d2Mag = .fin p.d2 := by rw [hc.d2Mag]; exact hp.d2.magIn
  have hd2 : p.d2 ≠ 0 := h4 ▸ h3.ne'
  refine ⟨fun he => ?_, fun he => ?_⟩
  · have hseq : ∀ i < n, ∃ a b c : ℝ, (m.eng R).seq (series n F) i = .ok (.fin a, .fin b, .fin c) := by
      intro i
      induction i with
      | zero => intro _; exact ⟨0, 0, 0, by simp [Eng.seq]⟩
      | succ i ih =>
        intro hi
        obtain ⟨a, b, c, hs⟩ := ih (by omega)
        obtain ⟨x, hx⟩ := (IRM.nextRndt_equal L hc hp h1 h2 h3 h4 h5 a b (F i)).1 he
        refine ⟨p.q1 * F i + (a - p.q1 * F i) * Real.exp (-(p.dt / p.d1)),
          p.q2 * F i + (b - p.q2 * F i) * Real.exp (-(p.dt / p.d2)), x, ?_⟩
        simp only [Eng.seq, hs, getAt, series_getElem? n F i (by omega)]
        simp only [IRM.eng, e1, e2, e3, e4, e5, calcNextTemp_fin h3.ne', calcNextTemp_fin hd2, hx]
    obtain ⟨v, hv, -⟩ := (IRM.stepper R).times_ok (m.ready R vals u) (modelF R vals u) rfl vals.length (by simp)
      (fun i hi => by
        rw [hmF]
        obtain ⟨a, b, c, hs⟩ := hseq i (by omega)
        exact ⟨_, hs⟩)
    rw [hsim.trans hv]
  · obtain ⟨m', hm'⟩ := (IRM.stepper R).times_error (m.ready R vals u) (modelF R vals u) rfl 1 (by simp; omega)
      (e := .zeroDivision) (by
        intro i hi
        obtain rfl : i = 0 := by omega
        exact ⟨_, rfl⟩) (by
        rw [hmF]
        have h0 : (m.eng R).seq (series n F) 0 = .ok (.fin 0, .fin 0, .fin 0) := by simp [Eng.seq]
        show (m.eng R).seq (series n F) 1 = _
        rw [show (1 : ℕ) = 0 + 1 from rfl, Eng.seq, h0]
        simp only [getAt, series_getElem? n F 0 (by omega)]
        simp only [IRM.eng, e1, e2, e3, e4, e5, calcNextTemp_fin h3.ne', calcNextTemp_fin hd2,
          (IRM.nextRndt_equal L hc hp h1 h2 h3 h4 h5 0 0 (F 0)).2 he]) vals.length (by omega)
    rw [hsim.trans hm']

/-- Any two timescales, in any order, can be reached by assigning `d1` and `d2`. -/
theorem IRM.exists_any (p : IRPar) : ∃ m, IRM.Reachable R m ∧ m.Phys R p ∧
    m.q1.unit = R.cwm2 ∧ m.q2.unit = R.cwm2 ∧ m.efficacy.unit = R.one := by
  obtain ⟨m, ⟨args, m0, h, h0, rfl⟩, hp, u1, u2, u3⟩ := IRM.exists_phys L { p with d1 := 1, d2 := 2 } (by norm_num)
  have g1 : ∀ x : ℝ, checkQty R (.qty ⟨.fin x, R.yr⟩) "d1" R.yr = .ok ⟨.fin x, R.yr⟩ := fun x => checkQty_good (Or.inl rfl)
  have g2 : ∀ x : ℝ, checkQty R (.qty ⟨.fin x, R.yr⟩) "d2" R.yr = .ok ⟨.fin x, R.yr⟩ := fun x => checkQty_good (Or.inl rfl)
  generalize hM : IRM.after R m0 h = M at *
  refine ⟨IRM.after R M [.setD1 (.qty ⟨.fin p.d1, R.yr⟩), .setD2 (.qty ⟨.fin p.d2, R.yr⟩)],
    ⟨args, m0, h ++ [.setD1 (.qty ⟨.fin p.d1, R.yr⟩), .setD2 (.qty ⟨.fin p.d2, R.yr⟩)], h0,
      by rw [← hM]; simp [IRM.after, List.foldl_append]⟩, ?_, ?_⟩
  · simp only [IRM.after, List.foldl, IRM.call, IRM.setD1, IRM.setD2, Py.bind_apply, Py.lift_apply, g1, g2,
      Py.modify_apply]
    exact ⟨hp.q1, hp.q2, isNum_self _ _, isNum_self _ _, hp.efficacy, hp.dt⟩
  · simp only [IRM.after, List.foldl, IRM.call, IRM.setD1, IRM.setD2, Py.bind_apply, Py.lift_apply, g1, g2,
      Py.modify_apply]
    exact ⟨u1, u2, u3⟩
end

/-- Concrete case: the default boxes with efficacy 1.3 in both orders, driven by `1 W/m²`: both objects run, and they
disagree on heat uptake; and an object with both timescales 9 years raises ZeroDivisionError. -/
example : ∃ (m m' m'' : IRM U0 XR) (d : DArg U0 XR) (T1 T2 U T1' T2' U' : ℕ → ℝ),
    IRM.Reachable U0.reg m ∧ IRM.Reachable U0.reg m' ∧ IRM.Reachable U0.reg m'' ∧
    m.Phys U0.reg { IRPar.default with e := 1.3 } ∧ IRPar.Ok { IRPar.default with e := 1.3 } ∧
    m'.Phys U0.reg (IRPar.swap { IRPar.default with e := 1.3 }) ∧
    m.q1.unit = U0.reg.cwm2 ∧ m'.q1.unit = U0.reg.cwm2 ∧ IsForcing U0.reg d 3 (fun _ => 1) ∧
    IRM.Produces U0.reg m d 3 T1 T2 U ∧ IRM.Produces U0.reg m' d 3 T1' T2' U' ∧ U' 2 ≠ U 2 ∧
    (IRM.simulate U0.reg d m'').2 = .error .zeroDivision := by
  set p : IRPar := { IRPar.default with e := 1.3 } with hp
  have hok : p.Ok := by constructor <;> norm_num [hp, IRPar.default]
  have hb' : p.swap.Boxes := ⟨hok.q2, hok.q1, hok.d2pos, hok.d1, hok.d2.ne', hok.e⟩
  obtain ⟨m, r1, f1, u1, v1, w1⟩ := IRM.exists_any U0.lawful p
  obtain ⟨m', r2, f2, u2, v2, w2⟩ := IRM.exists_any U0.lawful p.swap
  obtain ⟨m'', r3, f3, -⟩ := IRM.exists_any U0.lawful { p with d2 := p.d1 }
  have hd := forcing_exists (R := U0.reg) 3 (fun _ => 1)
  have P := IRM.produces_sol U0.lawful (IRM.Reachable.coherent _ r1) f1 hok (κ := 1) (by rw [u1]; exact isNum_self _ _)
    (by norm_num) hd (Or.inl (Or.inr (by rw [v1, w1]; simp [Registry.one])))
  have P' := IRM.produces_sol' U0.lawful (IRM.Reachable.coherent _ r2) f2 hb' (κ := 1)
    (by rw [u2]; exact isNum_self _ _) (by norm_num) hd (Or.inl (Or.inr (by rw [v2, w2]; simp [Registry.one])))
  refine ⟨m, m', m'', _, _, _, _, _, _, _, r1, r2, r3, f1, hok, f2, u1, u2, hd, P, P', ?_, ?_⟩
  · have key := C101_uptake U0.lawful r1 r2 f1 f2 hok u1 u2 hd hd P P' 1 (by norm_num)
    have hT : p.T1 (fun _ => 1) 1 ≠ p.T2 (fun _ => 1) 1 := by
      have a1 : p.T1 (fun _ => 1) 1 = 0.3 * (1 - Real.exp (-(1 / 12 / 9))) := by
        show p.T1 _ (0 + 1) = _
        rw [IRPar.T1_succ]; simp [hp, IRPar.default]; norm_num; ring
      have a2 : p.T2 (fun _ => 1) 1 = 0.4 * (1 - Real.exp (-(1 / 12 / 400))) := by
        show p.T2 _ (0 + 1) = _
        rw [IRPar.T2_succ]; simp [hp, IRPar.default]; norm_num; ring
      rw [a1, a2]
      have b1 : 1 - 1 / 12 / 400 ≤ Real.exp (-(1 / 12 / 400)) := by
        have := Real.add_one_le_exp (-(1 / 12 / 400 : ℝ)); linarith
      have b2 : Real.exp (-(1 / 12 / 9)) ≤ 1 / (1 + 1 / 12 / 9) := by
        rw [Real.exp_neg, ← one_div]
        apply one_div_le_one_div_of_le (by norm_num)
        have := Real.add_one_le_exp (1 / 12 / 9 : ℝ); linarith
      intro h
      norm_num at b1 b2 h
      linarith
    intro h
    rw [h, sub_self] at key
    have : (p.e - 1) / p.e * ((p.d2 - p.d1) / (p.q1 * p.d2 + p.q2 * p.d1)) ≠ 0 := by norm_num [hp, IRPar.default]
    exact (mul_ne_zero this (sub_ne_zero.mpr hT)) key.symm
  · exact (C101_equal U0.lawful r3 f3 hok.q1 hok.q2 hok.d1 rfl hok.e (by norm_num) hd).2 (by norm_num [hp])

end TwoLayer
