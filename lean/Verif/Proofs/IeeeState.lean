import Verif.Proofs.IeeeRun
import Verif.Proofs.RoundingState

/-! # No overflow in runs with state-dependent feedback -/

set_option linter.unusedSimpArgs false
set_option linter.unusedSectionVars false

namespace TwoLayer
namespace TLPar
variable {py : Bool} {p : TLPar} {K : ℝ}

theorem fu64_state (hp : p.Pos) (hup : p.dt * (p.l + p.e * p.h) ≤ p.C) (haK : |p.a| * (2 * K) ≤ p.l)
    (hin : p.InRange K (2⁻¹ ^ 1022) (2 ^ 1023)) (hK : 0 ≤ K)
    {F T TD : ℝ} (hF : |F| ≤ p.l * K) (hT : |T| ≤ 2 * K) (hTD : |TD| ≤ 2 * K)
    {dt t td f l a e h c : F64 py} (vdt : dt.value = some p.dt) (vt : t.value = some T) (vtd : td.value = some TD)
    (vf : f.value = some F) (vl : l.value = some p.l) (va : a.value = some p.a) (ve : e.value = some p.e)
    (vh : h.value = some p.h) (vc : c.value = some p.C) :
    (TLM.calcNextTempUpper dt t td f l a e h c).value = some (p.fu double F T TD) := by
  have hC := hp.C; have hl := hp.l; have he := hp.e; have hh := hp.h; have hdt := hp.dt
  have heh : 0 < p.e * p.h := mul_pos he hh
  obtain ⟨u, μ, Ω, hr, hu, hu1, hΩ, hin⟩ := range64 (fun μ Ω => p.InRange K μ Ω) hin
  simp only [TLPar.InRange, List.forall_mem_cons, List.not_mem_nil, IsEmpty.forall_iff, forall_const, and_true] at hin
  obtain ⟨⟨m1, o1⟩, ⟨m2, o2⟩, ⟨m3, o3⟩, ⟨m4, o4⟩, ⟨m5, o5⟩, ⟨m6, o6⟩, ⟨m7, o7⟩, -, -, -, -, -, -, -, ⟨m15, o15⟩⟩ := hin
  have p2 : ∀ {k : ℕ} {B : ℝ}, k ≤ 7 → 0 ≤ B → 2 * B ≤ Ω → (1 + u) ^ k * B ≤ Ω := fun hk hB hΩ =>
    (mul_le_mul_of_nonneg_right (pow_le_two hu hu1 hk) hB).trans hΩ
  have n1 : 0 ≤ p.l * K := by positivity
  have n2 : 0 ≤ p.e * p.h * K := by positivity
  -- a T
  have x0 : Ap u 0 (p.a * T) p.l (p.a * T) := Ap.exact (by
    rw [abs_mul]
    exact (mul_le_mul_of_nonneg_left hT (abs_nonneg _)).trans haK)
  have b0 := p2 (k := 0) (by norm_num) hl.le (by linarith)
  have w0 := F64.value_mul va vt (hΩ _ (x0.size.trans b0))
  have a0 := x0.round hr hu m1 b0
  -- λ
  have xl : Ap u 0 p.l p.l p.l := Ap.exact (le_of_eq (abs_of_pos hl))
  have x1 := (xl.mono hu (by norm_num : 0 ≤ 0 + 1) le_rfl).sub a0
  have b1 := p2 (k := 0 + 1) (B := p.l + p.l) (by norm_num) (by linarith) (by linarith)
  have w1 := F64.value_sub vl w0 (hΩ _ (x1.size.trans b1))
  have a1 := x1.round hr hu (by linarith) b1
  have xT : Ap u 0 T (2 * K) T := Ap.exact hT
  have xTD : Ap u 0 TD (2 * K) TD := Ap.exact hTD
  have xF : Ap u 0 F (p.l * K) F := Ap.exact hF
  have x2 := a1.mul hu xT
  have b2 := p2 (k := 0 + 1 + 1 + 0) (B := (p.l + p.l) * (2 * K)) (by norm_num) (by positivity) (by linarith)
  have w2 := F64.value_mul w1 vt (hΩ _ (x2.size.trans b2))
  have a2 := x2.round hr hu (by linarith) b2
  have x3 := (xF.mono hu (by norm_num : 0 ≤ 0 + 1 + 1 + 0 + 1) le_rfl).sub a2
  have b3 := p2 (k := 0 + 1 + 1 + 0 + 1) (B := p.l * K + (p.l + p.l) * (2 * K)) (by norm_num) (by positivity) (by linarith)
  have w3 := F64.value_sub vf w2 (hΩ _ (x3.size.trans b3))
  have a3 := x3.round hr hu (by linarith) b3
  have y1 : Ap u 0 (p.e * p.h) (p.e * p.h) (p.e * p.h) := Ap.exact (le_of_eq (abs_of_pos heh))
  have c1 := p2 (k := 0) (by norm_num) heh.le (by linarith)
  have v1 := F64.value_mul ve vh (hΩ _ (y1.size.trans c1))
  have d1 := y1.round hr hu m3 c1
  have y2 := xT.sub xTD
  have c2 := p2 (k := 0) (B := 2 * K + 2 * K) (by norm_num) (by positivity) (by linarith)
  have v2 := F64.value_sub vt vtd (hΩ _ (y2.size.trans c2))
  have d2 := y2.round hr hu (by linarith) c2
  have y3 := d1.mul hu d2
  have c3 := p2 (k := 0 + 1 + (0 + 1)) (B := p.e * p.h * (2 * K + 2 * K)) (by norm_num) (by positivity) (by linarith)
  have v3 := F64.value_mul v1 v2 (hΩ _ (y3.size.trans c3))
  have d3 := y3.round hr hu (by linarith) c3
  set H := p.l * K + (p.l + p.l) * (2 * K) + p.e * p.h * (2 * K + 2 * K) with hH
  have hH' : H = 5 * (p.l * K) + 4 * (p.e * p.h * K) := by rw [hH]; ring
  have hH0 : 0 ≤ H := by rw [hH']; positivity
  have x4 := a3.sub (d3.mono hu (by norm_num : 0 + 1 + (0 + 1) + 1 ≤ 0 + 1 + 1 + 0 + 1 + 1) le_rfl)
  rw [← hH] at x4
  have b4 := p2 (k := 0 + 1 + 1 + 0 + 1 + 1) (B := H) (by norm_num) (by positivity) (by linarith)
  have w4 := F64.value_sub w3 v3 (hΩ _ (x4.size.trans b4))
  have a4 := x4.round hr hu (by linarith) b4
  have s1 : H / p.C = 5 * (p.l * K / p.C) + 4 * (p.e * p.h * K / p.C) := by rw [hH']; ring
  have s2 : (p.l + p.e * p.h) * K / p.C = p.l * K / p.C + p.e * p.h * K / p.C := by ring
  have t1 : 0 ≤ p.l * K / p.C := by positivity
  have t2 : 0 ≤ p.e * p.h * K / p.C := by positivity
  have x5 := a4.div hC
  have b5 := p2 (k := 0 + 1 + 1 + 0 + 1 + 1 + 1) (B := H / p.C) (by norm_num) (by positivity) (by rw [s1]; linarith)
  have w5 := F64.value_div w4 vc hC.ne' (hΩ _ (x5.size.trans b5))
  have a5 := x5.round hr hu (by rw [s1]; linarith) b5
  have s3 : p.dt * (H / p.C) = 5 * (p.dt * (p.l * K) / p.C) + 4 * (p.dt * (p.e * p.h * K) / p.C) := by rw [s1]; ring
  have t3 : 0 ≤ p.dt * (p.l * K) / p.C := by positivity
  have t4 : 0 ≤ p.dt * (p.e * p.h * K) / p.C := by positivity
  have s4 : p.dt * (p.l * K) / p.C + p.dt * (p.e * p.h * K) / p.C ≤ K := by
    rw [← add_div, div_le_iff₀ hC]
    calc p.dt * (p.l * K) + p.dt * (p.e * p.h * K) = p.dt * (p.l + p.e * p.h) * K := by ring
      _ ≤ p.C * K := mul_le_mul_of_nonneg_right hup hK
      _ = _ := by ring
  have s5 : p.dt * (H / p.C) ≤ 5 * K := by rw [s3]; linarith
  have x6 := a5.smul hdt.le
  have b6 := p2 (k := 0 + 1 + 1 + 0 + 1 + 1 + 1 + 1) (B := p.dt * (H / p.C)) (by norm_num) (by positivity) (by linarith)
  have w6 := F64.value_mul vdt w5 (hΩ _ (x6.size.trans b6))
  have a6 := x6.round hr hu (by rw [s3]; linarith) b6
  have x7 := (xT.mono hu (by norm_num : 0 ≤ 0 + 1 + 1 + 0 + 1 + 1 + 1 + 1 + 1) le_rfl).add a6
  have b7 := p2 (k := 0 + 1 + 1 + 0 + 1 + 1 + 1 + 1 + 1) (B := 2 * K + p.dt * (H / p.C)) (by norm_num) (by positivity) (by linarith)
  exact F64.value_add vt w6 (hΩ _ (x7.size.trans b7))

theorem resolved_of (hp : p.Pos) (hK : 0 ≤ K) (hup : p.dt * (p.l + 3 * |p.a| * K + p.e * p.h) ≤ p.C) (hlo : p.dt * p.h ≤ p.D) :
    p.Resolved := by
  have hdt := hp.dt
  refine ⟨hp.C, hp.D, hp.l, hp.e.le, hp.h.le, hp.dt, le_trans ?_ hup, hlo⟩
  have : 0 ≤ 3 * |p.a| * K := by positivity
  gcongr
  linarith
end TLPar

section
variable {N : Type} [Fintype N] [DecidableEq N] {py : Bool} {R : Registry N (F64 py)}

theorem TLM.produces64_state {m : TLM N (F64 py)} {p : TLPar} {K ν : ℝ} (hc : m.Coherent R) (hp : m.Phys64 R p) (hpos : p.Pos)
    (hK : 0 ≤ K) (hν : 2 * ν = p.l - 2 * |p.a| * K) (hν0 : 0 < ν)
    (hup : p.dt * (p.l + 3 * |p.a| * K + p.e * p.h) ≤ p.C) (hlo : p.dt * p.h ≤ p.D)
    (hin : p.InRange K (2⁻¹ ^ 1022) (2 ^ 1023)) (hκ : 64 * 2⁻¹ ^ 53 * p.memoryAt ν * p.l ≤ ν)
    {d : DArg N (F64 py)} {n : ℕ} (hn : n ≠ 0) {F : ℕ → ℝ} (hd : IsForcing64 R d n F)
    (hF : ∀ i < n, |F i| ≤ (p.l - |p.a| * K) * K) :
    TLM.Produces64 R m d n (fun i => (p.fsol double F i).1) (fun i => (p.fsol double F i).2.1)
      (fun i => (p.fsol double F i).2.2) := by
  have e1 : m.core.deltaTMag.value = some p.dt := by rw [hc.core.dtMag]; exact hp.dt.magIn
  have e2 : m.lambda0Mag.value = some p.l := by rw [hc.lambda0Mag]; exact hp.lambda0.magIn
  have e3 : m.aMag.value = some p.a := by rw [hc.aMag]; exact hp.a.magIn
  have e4 : m.efficacyMag.value = some p.e := by rw [hc.efficacyMag]; exact hp.efficacy.magIn
  have e5 : m.etaMag.value = some p.h := by rw [hc.etaMag]; exact hp.eta.magIn
  have e6 : m.hcuMag.value = some p.C := by rw [hc.hcuMag]; exact hp.C.magIn
  have e7 : m.hclMag.value = some p.D := by rw [hc.hclMag]; exact hp.D.magIn
  have hres := TLPar.resolved_of hpos hK hup hlo
  have haK0 : 0 ≤ |p.a| * K := mul_nonneg (abs_nonneg _) hK
  have haK : |p.a| * (2 * K) ≤ p.l := by linarith
  have hF' : ∀ i < n, |F i| ≤ p.l * K := fun i hi => (hF i hi).trans (by
    have : (p.l - |p.a| * K) * K = p.l * K - |p.a| * K * K := by ring
    rw [this]
    have : 0 ≤ |p.a| * K * K := mul_nonneg haK0 hK
    linarith)
  have hb : ∀ i ≤ n, |(p.fsol double F i).1| ≤ 2 * K ∧ |(p.fsol double F i).2.1| ≤ 2 * K := by
    intro i hi
    obtain ⟨h1, h2, h3, h4, b1, b2⟩ := TLPar.fsol_err_state (double_accurate (2 ^ 1023)) (by positivity) (by norm_num) hpos hν hν0
      hup hlo hin hK hκ hF i hi
    have tri : ∀ x y : ℝ, |x| ≤ |x - y| + |y| := fun x y => by
      calc |x| = |(x - y) + y| := by congr 1; ring
        _ ≤ _ := abs_add_le _ _
    have h1' := h1.trans (h3.trans h4)
    have h2' := h2.trans h4
    exact ⟨(tri _ (p.T F i)).trans (by linarith only [h1', b1]), (tri _ (p.TD F i)).trans (by linarith only [h2', b2])⟩
  obtain ⟨vals, u, rfl, hlen, hg, hFs⟩ := hd.good hn
  have hseq : ∀ i < n, ∃ x, m.eng.seq (modelF R vals u) i = .ok x ∧ x.1.value = some (p.fsol double F i).1 ∧
      x.2.1.value = some (p.fsol double F i).2.1 ∧ x.2.2.value = some (p.fsol double F i).2.2 := by
    intro i
    induction i with
    | zero =>
      intro _
      exact ⟨_, rfl, F64.value_zero_lit, F64.value_zero_lit, F64.value_zero_lit⟩
    | succ i ih =>
      intro hi
      obtain ⟨⟨a, b, c⟩, hx, h1, h2, h3⟩ := ih (by omega)
      obtain ⟨f, hf, hfv⟩ := hFs i (by omega)
      obtain ⟨b1, b2⟩ := hb i (by omega)
      obtain ⟨b3, b4⟩ := hb (i + 1) hi.le
      have g1 := TLPar.fu64_state hpos hres.upper haK hin hK (hF' i (by omega)) b1 b2 e1 h1 h2 hfv e2 e3 e4 e5 e6
      have g2 := TLPar.fd64 hpos hres hin hK b1 b2 e1 h1 h2 e5 e7
      have g3 := TLPar.fr64 hpos hin hK b1 b2 b3 b4 e1 h1 h2 g1 g2 e6 e7
      refine ⟨_, by simp only [Eng.seq, hx, hf]; rfl, g1, g2, g3⟩
  obtain ⟨m', hm'⟩ := TLM.simulate_succeeds R m hg
  obtain ⟨vals', u', v, hg', hv, hI⟩ := TLM.simulate_ok hm'
  obtain ⟨h1, -⟩ := hg'
  cases h1
  have lA := hI.lA; have lB := hI.lB; have lC := hI.lC
  rw [modelF_length, hlen] at lA lB lC
  have key : ∀ i < n, ∃ x : F64 py × F64 py × F64 py, v.A[i]? = some x.1 ∧ v.B[i]? = some x.2.1 ∧ v.C[i]? = some x.2.2 ∧
      x.1.value = some (p.fsol double F i).1 ∧ x.2.1.value = some (p.fsol double F i).2.1 ∧
      x.2.2.value = some (p.fsol double F i).2.2 := by
    intro i hi
    obtain ⟨a, b, c, h1, h2, h3, h4⟩ := hI.done i (by omega)
    obtain ⟨x, hx, hx'⟩ := hseq i hi
    rw [h1] at hx
    cases hx
    exact ⟨_, h2, h3, h4, hx'⟩
  refine ⟨m', v.A, v.B, v.C, hm', by rw [hv]; rfl, ⟨lA, fun i hi => ?_⟩, ⟨lB, fun i hi => ?_⟩, ⟨lC, fun i hi => ?_⟩⟩
  · obtain ⟨x, h1, h2, h3, h4, h5, h6⟩ := key i (by omega)
    rw [List.getElem?_eq_getElem hi] at h1
    rw [Option.some.inj h1]; exact h4
  · obtain ⟨x, h1, h2, h3, h4, h5, h6⟩ := key i (by omega)
    rw [List.getElem?_eq_getElem hi] at h2
    rw [Option.some.inj h2]; exact h5
  · obtain ⟨x, h1, h2, h3, h4, h5, h6⟩ := key i (by omega)
    rw [List.getElem?_eq_getElem hi] at h3
    rw [Option.some.inj h3]; exact h6
end
end TwoLayer
