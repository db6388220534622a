import Verif.Proofs.IeeeState
import Verif.Props.Finite64

/-!
# C114 with state-dependent feedback, C115 for the impulse response: accuracy in true binary64

`F64`, `Phys64`, `Produces64`, `ForcingNum`, `NumAt` are in `Spec/Ieee.lean`; `TLPar.InRange`, `IRPar.InRange` in
`Spec/Rounding.lean`; `TLPar.memoryAt` in `Spec/RoundingState.lean`.
-/

set_option linter.unusedSimpArgs false
set_option linter.unusedSectionVars false

namespace TwoLayer
section
variable {N : Type} [Fintype N] [DecidableEq N] {py : Bool} {R : Registry N (F64 py)}

/-- **C114** (two-layer, any `a`).  Positive parameters otherwise, all sizes in the normal range of binary64, hypotheses on
forcing and step of C108.  For a run of any length nothing overflows and nothing is NaN, and the three reported series differ
from the exact solution of the non-linear discrete equations by the bounds of C108 with `u = 2⁻⁵³`. -/
theorem C114_two_layer_state (D : R.Dimensional) {K ν : ℝ} {m : TLM N (F64 py)} (hm : TLM.Reachable R m) {p : TLPar}
    (hp : m.Phys64 R p) (hpos : p.Pos) (hK : 0 ≤ K) (hν : 2 * ν = p.l - 2 * |p.a| * K) (hν0 : 0 < ν)
    (hup : p.dt * (p.l + 3 * |p.a| * K + p.e * p.h) ≤ p.C) (hlo : p.dt * p.h ≤ p.D)
    (hin : p.InRange K (2⁻¹ ^ 1022) (2 ^ 1023)) (hκ : 64 * 2⁻¹ ^ 53 * p.memoryAt ν * p.l ≤ ν)
    {d : DArg N (F64 py)} {n : ℕ} (hn : n ≠ 0) {F : ℕ → ℝ} (hd : IsForcing64 R d n F)
    (hF : ∀ i < n, |F i| ≤ (p.l - |p.a| * K) * K) {T TD U : ℕ → ℝ} (hex : TLEq p n F T TD U) :
    ∃ T' TD' U', TLM.Produces64 R m d n T' TD' U' ∧ ∀ i < n,
      |T' i - T i| ≤ 64 * 2⁻¹ ^ 53 * K * ((p.C + p.e * p.D) / (p.dt * ν)) ∧
      |TD' i - TD i| ≤ 64 * 2⁻¹ ^ 53 * K * p.memoryAt ν ∧
      |U' i - U i| ≤ 2⁻¹ ^ 53 * (32 + 128 * p.memoryAt ν) * (K * (p.C + p.D) / p.dt) := by
  refine ⟨_, _, _, TLM.produces64_state (TLM.Reachable.coherent R D hm) hp hpos hK hν hν0 hup hlo hin hκ hn hd hF,
    fun i hi => ?_⟩
  obtain ⟨e1, e2, e3⟩ := hex.unique hpos.ok i hi
  rw [e1, e2, e3]
  have hr := double_accurate (2 ^ 1023)
  obtain ⟨h1, h2, -⟩ := TLPar.fsol_err_state hr (by positivity) (by norm_num) hpos hν hν0 hup hlo hin hK hκ hF i hi.le
  exact ⟨h1, h2, TLPar.fsol_uptake_state hr (by positivity) (by norm_num) hpos hν hν0 hup hlo hin hK hκ hF i hi.le⟩

/-- **C115** (impulse response, accuracy).  Positive parameters, no upper limit on any size (`Ω` is arbitrary).  In a run in
binary64 that raises nothing, under forcings that are numbers within `±M` or infinities, every reported temperature which is
a number differs from the exact response by no more than the bounds of C67 with `u = 2⁻⁵³`. -/
theorem C115_impulse_response_accuracy {M Ω : ℝ} {m m' : IRM N (F64 py)} (hm : IRM.Reachable R m) {p : IRPar}
    (hp : m.Phys64 R p) (hok : p.Ok) (hdt : 0 < p.dt) (hin : p.InRange M (2⁻¹ ^ 1022) Ω) (hM : 0 ≤ M)
    (hκ : 32 * 2⁻¹ ^ 53 * (1 + p.d2 / p.dt) ≤ 1) {d : DArg N (F64 py)} (h : IRM.simulate R d m = (m', .ok ()))
    {n : ℕ} {F : ℕ → ℝ} (hd : ∀ i < n, ∀ v, ForcingNum R d i v → v = F i) (hF : ∀ i < n, |F i| ≤ M) {T1 T2 U : ℕ → ℝ}
    (hex : IREq p 1 n F T1 T2 U) :
    ∃ t1 t2 t u, m'.outputs = [("Surface Temperature|Box 1", "delta_degC", t1), ("Surface Temperature|Box 2", "delta_degC", t2),
      ("Surface Temperature", "delta_degC", t), ("Heat Uptake", "W/m^2", u)] ∧ ∀ k < n, ∀ v,
      (NumAt t1 k v → |v - T1 k| ≤ 32 * 2⁻¹ ^ 53 * (p.q1 * M) * (1 + p.d1 / p.dt)) ∧
      (NumAt t2 k v → |v - T2 k| ≤ 32 * 2⁻¹ ^ 53 * (p.q2 * M) * (1 + p.d2 / p.dt)) ∧
      (NumAt t k v → |v - (T1 k + T2 k)| ≤ 32 * 2⁻¹ ^ 53 * (p.q1 * M) * (1 + p.d1 / p.dt) +
        32 * 2⁻¹ ^ 53 * (p.q2 * M) * (1 + p.d2 / p.dt) + 2 * 2⁻¹ ^ 53 * ((p.q1 + p.q2) * M)) ∧
      (m.PlainUnits64 R → p.ConvInRange (2⁻¹ ^ 1022) Ω → p.q1 + p.q2 ≤ 2 ^ 1023 → NumAt u k v →
        |v - U k| ≤ 2⁻¹ ^ 53 * M * (59 + 32 * (p.d2 / p.dt))) := by
  obtain ⟨t1, t2, t, u, ho, hv⟩ := IRM.finite_outputs hm hp hok.d1.ne' (hok.d1.trans hok.d2).ne' h hd
  refine ⟨t1, t2, t, u, ho, fun k hk v => ?_⟩
  obtain ⟨a, b, c, e⟩ := hv k hk v
  obtain ⟨b1, b2, b3⟩ := IRPar.run_err (double_accurate Ω) (by positivity) (by norm_num) hok hdt hin hM hκ hF
    hex.box1 hex.box2 k hk
  refine ⟨fun h => by rw [a h]; exact b1, fun h => by rw [b h]; exact b2, fun h => by rw [c h]; exact b3,
    fun hpl hci hq hn => ?_⟩
  have he : p.e = 1 := by
    have := hp.efficacy.magIn
    rw [hpl.efficacy, Qty.magIn, if_pos rfl] at this
    exact (Option.some.inj this).symm
  have hq' : 2⁻¹ ^ 1022 ≤ p.q1 + p.q2 := by
    have h0 := (hci.2 (p.q1 + p.q2) (by simp)).1
    refine le_trans (le_mul_of_one_le_left (by positivity) (by norm_num)) h0
  rw [e hpl hq' hq hn]
  exact IRPar.uptake_err (double_accurate Ω) (by positivity) (by norm_num) (by positivity) hok he hdt hin
    hci hM hκ hF hex k hk
end

/-! ## `TwoLayerModel(a=a)` in binary64 -/

section
variable {py : Bool}

/-- the arguments of `TwoLayerModel(a=a)` -/
noncomputable def args64 (py : Bool) (a : ℝ) : TLM.Args U0 (F64 py) :=
  { TLM.defaultArgs (U0.reg64 py) with a := .qty ⟨F64.num a, (U0.reg64 py).wm2cc⟩ }

theorem U0.reg64_a (a : ℝ) : ∃ m, TLM.init (U0.reg64 py) (args64 py a) = .ok m ∧ m.Phys64 (U0.reg64 py) (TLPar.defaultA a) := by
  obtain ⟨m, h1, h2⟩ := U0.reg64_default (py := py)
  have hi := TLM.init_good (U0.dimensional64 py) (du := ⟨Arith.ofNat 50, (U0.reg64 py).m⟩)
    (dl := ⟨Arith.ofNat 1200, (U0.reg64 py).m⟩)
    (l := ⟨Arith.dec 374 2 / Arith.ofNat 3, (U0.reg64 py).wm2c⟩) (a := ⟨Arith.dec 0 1, (U0.reg64 py).wm2cc⟩)
    (ef := ⟨Arith.dec 10 1, (U0.reg64 py).one⟩) (et := ⟨Arith.dec 8 1, (U0.reg64 py).wm2c⟩)
    (dt := ⟨(Qty.mk (Arith.ofNat 1) (U0.reg64 py).yr).magIn (U0.reg64 py) (U0.reg64 py).s, (U0.reg64 py).s⟩)
    (Or.inl rfl) (Or.inl rfl) (Or.inl rfl) (Or.inl rfl) (Or.inl rfl) (Or.inl rfl) (Or.inl rfl)
  have e := hi.symm.trans h1
  rw [Except.ok.injEq] at e
  subst e
  refine ⟨_, TLM.init_good (U0.dimensional64 py) (Or.inl rfl) (Or.inl rfl) (Or.inl rfl) (Or.inl rfl) (Or.inl rfl)
    (Or.inl rfl) (Or.inl rfl), ⟨h2.C, h2.D, h2.lambda0, ?_, h2.efficacy, h2.eta, h2.dt⟩⟩
  exact isNum64_self _ rfl

/-- **C114** (`TwoLayerModel(a=a)` in binary64, `|a| ≤ 0.05 W/m²/K²`).  Whatever the length of the run, under any forcing
within ±7 W/m² nothing overflows and nothing is NaN, the reported temperatures are within 10⁻⁹ K, and the heat uptake within
10⁻⁷ W/m², of the exact solution of the non-linear discrete equations with the parameters the object holds. -/
theorem C114_default_state {a : ℝ} (ha : |a| ≤ 1 / 20) {m : TLM U0 (F64 py)}
    (hm : TLM.init (U0.reg64 py) (args64 py a) = .ok m) {n : ℕ} (hn : n ≠ 0) {d : DArg U0 (F64 py)} {F : ℕ → ℝ}
    (hd : IsForcing64 (U0.reg64 py) d n F) (hF : ∀ i < n, |F i| ≤ 7) {T TD U : ℕ → ℝ}
    (hex : TLEq (TLPar.defaultA a) n F T TD U) :
    ∃ T' TD' U', TLM.Produces64 (U0.reg64 py) m d n T' TD' U' ∧ ∀ i < n,
      |T' i - T i| ≤ 1 / 10 ^ 9 ∧ |TD' i - TD i| ≤ 1 / 10 ^ 9 ∧ |U' i - U i| ≤ 1 / 10 ^ 7 := by
  obtain ⟨m', h1, h2⟩ := U0.reg64_a (py := py) a
  rw [h1] at hm; cases hm
  obtain ⟨l1, l2⟩ := TLPar.defaultD_l
  obtain ⟨k1, k2⟩ := TLPar.defaultD_h
  set p := TLPar.defaultA a with hpdef
  have eC : p.C = 209050000 := rfl
  have eD : p.D = 5017200000 := rfl
  have ee : p.e = 1 := rfl
  have et : p.dt = 31557600 := rfl
  have el : p.l = TLPar.defaultD.l := rfl
  have eh : p.h = TLPar.defaultD.h := rfl
  have ea : p.a = a := rfl
  have ha0 := abs_nonneg a
  set ν := (p.l - 2 * |p.a| * 10) / 2 with hν
  have hν1 : 0.12 ≤ ν := by
    rw [hν, el, ea]
    have h1 := l1
    norm_num at h1 ha ⊢
    linarith only [h1, ha]
  have hfor : (p.C + p.e * p.D) / (p.dt * ν) ≤ 1381 := by
    rw [eC, eD, ee, et, div_le_iff₀ (by linarith)]
    linarith
  have hmem : p.memoryAt ν ≤ 1583 := by
    have h2 : p.D / (p.dt * p.h) ≤ 202 := by
      rw [eD, et, eh, div_le_iff₀ (by linarith)]
      linarith
    unfold TLPar.memoryAt
    linarith
  have hmem0 : 0 ≤ p.memoryAt ν := by
    have := TLPar.defaultA_pos a
    have hC := this.C; have hD := this.D; have he := this.e; have hh := this.h; have hdt := this.dt
    have : 0 < ν := by linarith
    unfold TLPar.memoryAt
    positivity
  have hκ : 64 * (2⁻¹ : ℝ) ^ 53 * p.memoryAt ν * p.l ≤ ν := by
    calc 64 * (2⁻¹ : ℝ) ^ 53 * p.memoryAt ν * p.l ≤ 64 * (2⁻¹ : ℝ) ^ 53 * 1583 * 1.25 := by rw [el]; gcongr
      _ ≤ 0.12 := by norm_num
      _ ≤ ν := hν1
  obtain ⟨T', TD', U', hrun, hb⟩ := C114_two_layer_state (K := 10) (ν := ν) (U0.dimensional64 py) ⟨_, _, [], h1, rfl⟩ h2
    (TLPar.defaultA_pos a) (by norm_num) (by rw [hν]; ring)
    (by linarith) (by show p.dt * (p.l + 3 * |p.a| * 10 + p.e * p.h) ≤ p.C; rw [et, el, ea, ee, eh, eC]; linarith)
    (by show p.dt * p.h ≤ p.D; rw [et, eh, eD]; linarith)
    (fun x hx => ⟨(TLPar.defaultA_inRange a x hx).1, (TLPar.defaultA_inRange a x hx).2.trans big64⟩) hκ hn hd
    (fun i hi => (hF i hi).trans (by show _ ≤ (p.l - |p.a| * 10) * 10; rw [el, ea]; norm_num at *; linarith)) hex
  refine ⟨T', TD', U', hrun, fun i hi => ?_⟩
  obtain ⟨b1, b2, b3⟩ := hb i hi
  refine ⟨b1.trans ?_, b2.trans ?_, b3.trans ?_⟩
  · calc _ ≤ 64 * (2⁻¹ : ℝ) ^ 53 * 10 * 1381 := by gcongr
      _ ≤ _ := by norm_num
  · calc _ ≤ 64 * (2⁻¹ : ℝ) ^ 53 * 10 * 1583 := by gcongr
      _ ≤ _ := by norm_num
  · calc _ ≤ 2⁻¹ ^ 53 * (32 + 128 * 1583) * (10 * (209050000 + 5017200000) / 31557600 : ℝ) := by
          show 2⁻¹ ^ 53 * (32 + 128 * p.memoryAt ν) * (10 * (209050000 + 5017200000) / 31557600 : ℝ) ≤ _
          gcongr
      _ ≤ _ := by norm_num

/-- Concrete case: `a = 0.05`, a thousand years at 7 W/m². -/
example : ∃ m T TD U, TLM.init (U0.reg64 py) (args64 py (1 / 20)) = .ok m ∧ |(1 / 20 : ℝ)| ≤ 1 / 20 ∧
    IsForcing64 (U0.reg64 py) (.qty ⟨1, (List.range 1000).map fun _ => F64.num 7⟩ (U0.reg64 py).wm2) 1000 (fun _ => 7) ∧
    (∀ i < 1000, |(fun _ : ℕ => (7 : ℝ)) i| ≤ 7) ∧ TLEq (TLPar.defaultA (1 / 20)) 1000 (fun _ => 7) T TD U := by
  obtain ⟨m, h1, -⟩ := U0.reg64_a (py := py) (1 / 20)
  exact ⟨m, _, _, _, h1, by norm_num [abs_of_pos], isForcing64_nums 1000 fun _ => 7, fun i _ => by norm_num,
    TLPar.sol_eq (TLPar.defaultA_pos _).ok 1000 _⟩

/-- Concrete case of `C115_impulse_response_accuracy`: the ranges hold of `ImpulseResponseModel()`; that its runs exist is the
example in `Props/Finite64.lean`. -/
example : IRPar.defaultD.Ok ∧ IRPar.defaultD.InRange 100 (2⁻¹ ^ 1022) (2 ^ 1023) ∧
    IRPar.defaultD.ConvInRange (2⁻¹ ^ 1022) (2 ^ 1023) ∧ 32 * 2⁻¹ ^ 53 * (1 + IRPar.defaultD.d2 / IRPar.defaultD.dt) ≤ 1 ∧
    0 < IRPar.defaultD.dt := by
  obtain ⟨-, -, ⟨c1, c2⟩⟩ := IRPar.defaultD_bounds
  norm_num only at c1 c2
  have hdt : 0 < IRPar.defaultD.dt := by linarith
  have ed2 : IRPar.defaultD.d2 = 400 := rfl
  have x2 : IRPar.defaultD.d2 / IRPar.defaultD.dt ≤ 4900 := by rw [ed2, div_le_iff₀ hdt]; linarith
  exact ⟨IRPar.defaultD_ok, IRPar.defaultD_inRange64, IRPar.defaultD_conv64, by norm_num; linarith, hdt⟩
end
end TwoLayer
