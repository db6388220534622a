import Verif.Proofs.Finite64
import Verif.Props.Ieee64
import Verif.Props.RoundingState
import Verif.Props.RoundingSym

/-!
# C115: a finite output can be trusted

C114 says that nothing overflows if all sizes are in range.  Here nothing is assumed about sizes: infinities may appear
anywhere.  `F64`, `ForcingNum` and `NumAt` are in `Spec/Ieee.lean`; `FR double` (binary64 without a largest number), `FPhys`,
`FProduces`, `IsFForcing` and `InRange` in `Spec/Rounding.lean`; `TLEq`, `IREq` in `Spec/Equations.lean`.
-/

set_option linter.unusedSimpArgs false
set_option linter.unusedSectionVars false

namespace TwoLayer
section
variable {N : Type} [Fintype N] [DecidableEq N] {py : Bool} {R : Registry N (F64 py)}

theorem NumAt.finite {l : List (F64 py)} {i : ℕ} {v : ℝ} (h : NumAt l i v) : FiniteAt l i :=
  let ⟨x, h1, h2⟩ := h; ⟨x, h1, v, h2⟩

theorem NumAt.of {l : List (F64 py)} {i : ℕ} {v w : ℝ} {x : F64 py} (hx : l[i]? = some x) (hw : x.Finite → x.value = some w)
    (h : NumAt l i v) : v = w := by
  obtain ⟨y, h1, h2⟩ := h
  rw [hx] at h1; cases h1
  rw [hw ⟨v, h2⟩] at h2
  exact (Option.some.inj h2).symm

theorem forcing_modelF {d : DArg N (F64 py)} {vals : List (F64 py)} {u : Units N} (hg : GoodDrivers R d vals u) {n : ℕ} {F : ℕ → ℝ}
    (hF : ∀ i < n, ∀ v, ForcingNum R d i v → v = F i) :
    ∀ i < n, ∀ x v, (modelF R vals u)[i]? = some x → x.value = some v → v = F i := by
  intro i hi x v hx hv
  simp only [modelF, magsIn, List.getElem?_map, Option.map_eq_some_iff] at hx
  obtain ⟨y, h1, h2⟩ := hx
  refine hF i hi v ⟨vals, u, y, hg.1, h1, x, ?_, hv⟩
  unfold Qty.toUnit
  rw [if_pos hg.2.1, h2]

/-- what a finite output of a two-layer run is -/
theorem TLM.finite_outputs (D : R.Dimensional) {m m' : TLM N (F64 py)} (hm : TLM.Reachable R m) {p : TLPar}
    (hp : m.Phys64 R p) (hok : p.Ok) {d : DArg N (F64 py)} (h : TLM.simulate R d m = (m', .ok ())) {n : ℕ}
    {F : ℕ → ℝ} (hF : ∀ i < n, ∀ v, ForcingNum R d i v → v = F i) :
    ∃ Tu Tl u, m'.outputs = [("Surface Temperature|Upper", "delta_degC", Tu), ("Surface Temperature|Lower", "delta_degC", Tl),
        ("Heat Uptake", "W/m^2", u)] ∧ ∀ k < n, ∀ v,
      (NumAt Tu k v → v = (p.fsol double F k).1) ∧ (NumAt Tl k v → v = (p.fsol double F k).2.1) ∧
      (NumAt u k v → v = (p.fsol double F k).2.2) := by
  obtain ⟨vals, u, v, hg, rfl, hI⟩ := TLM.simulate_ok h
  have hmF := forcing_modelF hg hF
  refine ⟨v.A, v.B, v.C, rfl, fun k hk w => ?_⟩
  have cell : k < vals.length → ∃ x : F64 py × F64 py × F64 py, m.eng.seq (modelF R vals u) k = .ok x ∧
      v.A[k]? = some x.1 ∧ v.B[k]? = some x.2.1 ∧ v.C[k]? = some x.2.2 := by
    intro hk
    obtain ⟨a, b, c, h1, h2, h3, h4⟩ := hI.done k hk
    exact ⟨(a, b, c), h1, h2, h3, h4⟩
  have rd : ∀ {l : List (F64 py)}, l.length = (modelF R vals u).length → NumAt l k w → k < vals.length := by
    rintro l hl ⟨x, hx, -⟩
    obtain ⟨hk, -⟩ := List.getElem?_eq_some_iff.mp hx
    rwa [hl, modelF_length] at hk
  have val := fun {x : F64 py × F64 py × F64 py} => TLM.seq_finite (TLM.Reachable.coherent R D hm) hp hok.C hok.D hok.dt hmF
    (k := k) (x := x) hk.le
  refine ⟨fun hw => ?_, fun hw => ?_, fun hw => ?_⟩
  · obtain ⟨x, hx, xA, xB, xC⟩ := cell (rd hI.lA hw)
    exact hw.of xA (val hx).1
  · obtain ⟨x, hx, xA, xB, xC⟩ := cell (rd hI.lB hw)
    exact hw.of xB (val hx).2.1
  · obtain ⟨x, hx, xA, xB, xC⟩ := cell (rd hI.lC hw)
    exact hw.of xC (val hx).2.2

/-- **C115** (two-layer).  Let the parameters of an object be numbers, with `C`, `D` and `delta_t` not zero, and let a run in
binary64 raise nothing, whatever overflows in it.  Every reported value which is a number is the very number that the same
run reports in the arithmetic `FR double`, which rounds as binary64 does but has no largest number: overflow turns values into
infinities and NaN, it never leaves behind a number that is wrong. -/
theorem C115_two_layer {M : Type} [Fintype M] [DecidableEq M] {R' : Registry M (FR double)} (D : R.Dimensional)
    (D' : R'.Dimensional) {m m₁ : TLM N (F64 py)} (hm : TLM.Reachable R m) {p : TLPar} (hp : m.Phys64 R p)
    {m' : TLM M (FR double)} (hm' : TLM.Reachable R' m') (hp' : m'.FPhys R' p) (hok : p.Ok) {d : DArg N (F64 py)}
    {d' : DArg M (FR double)} {n : ℕ} (hn : n ≠ 0) {F : ℕ → ℝ} (hd' : IsFForcing R' d' n F)
    (hd : ∀ i < n, ∀ v, ForcingNum R d i v → v = F i) (h : TLM.simulate R d m = (m₁, .ok ())) {T TD U : ℕ → ℝ}
    (hrun : TLM.FProduces R' m' d' n T TD U) :
    ∃ Tu Tl u, m₁.outputs = [("Surface Temperature|Upper", "delta_degC", Tu), ("Surface Temperature|Lower", "delta_degC", Tl),
        ("Heat Uptake", "W/m^2", u)] ∧ ∀ k < n, ∀ v,
      (NumAt Tu k v → v = T k) ∧ (NumAt Tl k v → v = TD k) ∧ (NumAt u k v → v = U k) := by
  obtain ⟨x, s1, o1⟩ := hrun
  obtain ⟨y, s2, o2⟩ := TLM.fproduces (double_accurate 1).zero (TLM.Reachable.coherent R' D' hm') hp' hok hn hd'
  rw [s1] at s2; cases s2
  rw [o1] at o2
  simp only [List.cons.injEq, Prod.mk.injEq, true_and, and_true] at o2
  obtain ⟨e1, e2, e3⟩ := o2
  have inj : ∀ {f g : ℕ → ℝ}, (fseries n f : List (FR double)) = fseries n g → ∀ i < n, g i = f i := by
    intro f g h i hi
    have := congrArg (fun l => l[i]?) h
    simp only [fseries_getElem? n f i hi, fseries_getElem? n g i hi, Option.some.injEq] at this
    exact (XR.fin.inj this).symm
  obtain ⟨Tu, Tl, u, ho, hv⟩ := TLM.finite_outputs D hm hp hok h hd
  refine ⟨Tu, Tl, u, ho, fun k hk v => ?_⟩
  obtain ⟨a, b, c⟩ := hv k hk v
  exact ⟨fun h => (a h).trans (inj e1 k hk), fun h => (b h).trans (inj e2 k hk), fun h => (c h).trans (inj e3 k hk)⟩

/-- **C115** (two-layer, accuracy).  Any `a`; hypotheses of C108, with no upper limit on any size (`Ω` is arbitrary).  In a
run in binary64 that raises nothing, every reported value which is a number differs from the exact solution of the discrete
(non-linear) equations by no more than the bounds of C108 with `u = 2⁻⁵³`. -/
theorem C115_two_layer_accuracy (D : R.Dimensional) {K ν Ω : ℝ} {m m' : TLM N (F64 py)} (hm : TLM.Reachable R m) {p : TLPar}
    (hp : m.Phys64 R p) (hpos : p.Pos) (hK : 0 ≤ K) (hν : 2 * ν = p.l - 2 * |p.a| * K) (hν0 : 0 < ν)
    (hup : p.dt * (p.l + 3 * |p.a| * K + p.e * p.h) ≤ p.C) (hlo : p.dt * p.h ≤ p.D) (hin : p.InRange K (2⁻¹ ^ 1022) Ω)
    (hκ : 64 * 2⁻¹ ^ 53 * p.memoryAt ν * p.l ≤ ν) {d : DArg N (F64 py)} (h : TLM.simulate R d m = (m', .ok ()))
    {n : ℕ} {F : ℕ → ℝ} (hd : ∀ i < n, ∀ v, ForcingNum R d i v → v = F i) (hF : ∀ i < n, |F i| ≤ (p.l - |p.a| * K) * K)
    {T TD U : ℕ → ℝ} (hex : TLEq p n F T TD U) :
    ∃ Tu Tl u, m'.outputs = [("Surface Temperature|Upper", "delta_degC", Tu), ("Surface Temperature|Lower", "delta_degC", Tl),
        ("Heat Uptake", "W/m^2", u)] ∧ ∀ k < n, ∀ v,
      (NumAt Tu k v → |v - T k| ≤ 64 * 2⁻¹ ^ 53 * K * ((p.C + p.e * p.D) / (p.dt * ν))) ∧
      (NumAt Tl k v → |v - TD k| ≤ 64 * 2⁻¹ ^ 53 * K * p.memoryAt ν) ∧
      (NumAt u k v → |v - U k| ≤ 2⁻¹ ^ 53 * (32 + 128 * p.memoryAt ν) * (K * (p.C + p.D) / p.dt)) := by
  obtain ⟨Tu, Tl, u, ho, hv⟩ := TLM.finite_outputs D hm hp hpos.ok h hd
  refine ⟨Tu, Tl, u, ho, fun k hk v => ?_⟩
  obtain ⟨a, b, c⟩ := hv k hk v
  obtain ⟨e1, e2, e3⟩ := hex.unique hpos.ok k hk
  rw [e1, e2, e3]
  have hr := double_accurate Ω
  obtain ⟨h1, h2, -⟩ := TLPar.fsol_err_state hr (by positivity) (by norm_num) hpos hν hν0 hup hlo hin hK hκ hF k hk.le
  have h3 := TLPar.fsol_uptake_state hr (by positivity) (by norm_num) hpos hν hν0 hup hlo hin hK hκ hF k hk.le
  exact ⟨fun h => by rw [a h]; exact h1, fun h => by rw [b h]; exact h2, fun h => by rw [c h]; exact h3⟩

/-- what a finite output of an impulse response run is -/
theorem IRM.finite_outputs {m m' : IRM N (F64 py)} (hm : IRM.Reachable R m) {p : IRPar}
    (hp : m.Phys64 R p) (hd1 : p.d1 ≠ 0) (hd2 : p.d2 ≠ 0) {d : DArg N (F64 py)} (h : IRM.simulate R d m = (m', .ok ()))
    {n : ℕ} {F : ℕ → ℝ} (hF : ∀ i < n, ∀ v, ForcingNum R d i v → v = F i) :
    ∃ t1 t2 t u, m'.outputs = [("Surface Temperature|Box 1", "delta_degC", t1), ("Surface Temperature|Box 2", "delta_degC", t2),
      ("Surface Temperature", "delta_degC", t), ("Heat Uptake", "W/m^2", u)] ∧ ∀ k < n, ∀ v,
      (NumAt t1 k v → v = fboxes double p.q1 p.d1 p.dt F k) ∧ (NumAt t2 k v → v = fboxes double p.q2 p.d2 p.dt F k) ∧
      (NumAt t k v → v = double.fl (fboxes double p.q1 p.d1 p.dt F k + fboxes double p.q2 p.d2 p.dt F k)) ∧
      (m.PlainUnits64 R → 2⁻¹ ^ 1022 ≤ p.q1 + p.q2 → p.q1 + p.q2 ≤ 2 ^ 1023 → NumAt u k v → v = p.fU double F k) := by
  obtain ⟨vals, u, v, hg, rfl, hI⟩ := IRM.simulate_ok h
  have hmF := forcing_modelF hg hF
  refine ⟨v.A, v.B, List.zipWith (· + ·) v.A v.B, v.C, rfl, fun k hk w => ?_⟩
  have cell : k < vals.length → ∃ x : F64 py × F64 py × F64 py, (m.eng R).seq (modelF R vals u) k = .ok x ∧
      v.A[k]? = some x.1 ∧ v.B[k]? = some x.2.1 ∧ v.C[k]? = some x.2.2 := by
    intro hk
    obtain ⟨a, b, c, h1, h2, h3, h4⟩ := hI.done k hk
    exact ⟨(a, b, c), h1, h2, h3, h4⟩
  have rd : ∀ {l : List (F64 py)} {w : ℝ}, l.length = (modelF R vals u).length → NumAt l k w → k < vals.length := by
    rintro l w hl ⟨x, hx, -⟩
    obtain ⟨hk, -⟩ := List.getElem?_eq_some_iff.mp hx
    rwa [hl, modelF_length] at hk
  have val := fun {x : F64 py × F64 py × F64 py} => IRM.seq_finite (IRM.Reachable.coherent R hm) hp hd1 hd2 hmF
    (k := k) (x := x) hk.le
  have A : ∀ {w}, NumAt v.A k w → w = fboxes double p.q1 p.d1 p.dt F k := fun hw => by
    obtain ⟨x, hx, xA, xB, xC⟩ := cell (rd hI.lA hw)
    exact hw.of xA (val hx).1
  have B : ∀ {w}, NumAt v.B k w → w = fboxes double p.q2 p.d2 p.dt F k := fun hw => by
    obtain ⟨x, hx, xA, xB, xC⟩ := cell (rd hI.lB hw)
    exact hw.of xB (val hx).2.1
  refine ⟨A, B, fun hw => ?_, fun hpl hq hq' hw => ?_⟩
  · obtain ⟨z, hz, hzw⟩ := hw
    rw [List.getElem?_zipWith_eq_some] at hz
    obtain ⟨a, b, ha, hb, rfl⟩ := hz
    obtain ⟨⟨va, ka⟩, ⟨vb, kb⟩⟩ := (F64.absorbs (py := py)).add ⟨w, hzw⟩
    have e1 := A ⟨a, ha, ka⟩
    have e2 := B ⟨b, hb, kb⟩
    rw [F64.fin_add ka kb ⟨w, hzw⟩] at hzw
    rw [← Option.some.inj hzw, e1, e2]
    rfl
  · obtain ⟨x, hx, xA, xB, xC⟩ := cell (rd hI.lC hw)
    exact hw.of xC ((val hx).2.2 hpl hq hq')

/-- **C115** (impulse response).  Let the parameters of an object be numbers, with `d1` and `d2` not zero, and let a run in
binary64 raise nothing, whatever overflows in it.  Every reported temperature which is a number is the number that the same
run reports in `FR double`; with efficacy 1 and parameters in the units of the model (and `q1 + q2` a normal double) so is
every reported heat uptake. -/
theorem C115_impulse_response {M : Type} [Fintype M] [DecidableEq M] {R' : Registry M (FR double)}
    {m m₁ : IRM N (F64 py)} (hm : IRM.Reachable R m) {p : IRPar} (hp : m.Phys64 R p)
    {m' : IRM M (FR double)} (hm' : IRM.Reachable R' m') (hp' : m'.FPhys R' p) (hd1 : p.d1 ≠ 0) (hd2 : p.d2 ≠ 0)
    {d : DArg N (F64 py)} {d' : DArg M (FR double)} {n : ℕ} (hn : n ≠ 0) {F : ℕ → ℝ} (hd' : IsFForcing R' d' n F)
    (hd : ∀ i < n, ∀ v, ForcingNum R d i v → v = F i) (h : IRM.simulate R d m = (m₁, .ok ())) {T1 T2 T : ℕ → ℝ}
    {us : List (FR double)} (hrun : IRM.FProduces R' m' d' n T1 T2 T us) :
    ∃ t1 t2 t u, m₁.outputs = [("Surface Temperature|Box 1", "delta_degC", t1), ("Surface Temperature|Box 2", "delta_degC", t2),
      ("Surface Temperature", "delta_degC", t), ("Heat Uptake", "W/m^2", u)] ∧ ∀ k < n, ∀ v,
      (NumAt t1 k v → v = T1 k) ∧ (NumAt t2 k v → v = T2 k) ∧ (NumAt t k v → v = T k) ∧
      (m.PlainUnits64 R → m'.PlainUnits R' → 2⁻¹ ^ 1022 ≤ p.q1 + p.q2 → p.q1 + p.q2 ≤ 2 ^ 1023 → NumAt u k v →
        us[k]? = some (FR.fin v)) := by
  obtain ⟨x, s1, o1⟩ := hrun
  have hc' := IRM.Reachable.coherent R' hm'
  obtain ⟨us', ⟨y, s2, o2⟩, hlen, hus⟩ := IRM.fproduces (double_accurate 1).zero hc' hp' hd1 hd2 hn hd' s1
  rw [s1] at s2; cases s2
  rw [o1] at o2
  simp only [List.cons.injEq, Prod.mk.injEq, true_and, and_true] at o2
  obtain ⟨e1, e2, e3, rfl⟩ := o2
  have inj : ∀ {f g : ℕ → ℝ}, (fseries n f : List (FR double)) = fseries n g → ∀ i < n, g i = f i := by
    intro f g h i hi
    have := congrArg (fun l => l[i]?) h
    simp only [fseries_getElem? n f i hi, fseries_getElem? n g i hi, Option.some.injEq] at this
    exact (XR.fin.inj this).symm
  obtain ⟨t1, t2, t, u, ho, hv⟩ := IRM.finite_outputs hm hp hd1 hd2 h hd
  refine ⟨t1, t2, t, u, ho, fun k hk v => ?_⟩
  obtain ⟨a, b, c, e⟩ := hv k hk v
  refine ⟨fun h => (a h).trans (inj e1 k hk), fun h => (b h).trans (inj e2 k hk), fun h => (c h).trans (inj e3 k hk),
    fun hpl hpl' hq hq' hn => ?_⟩
  rw [e hpl hq hq' hn]
  obtain ⟨c, hc, hseq⟩ := hus k hk
  rw [hc]
  congr 1
  rcases k with _ | k
  · have hz : double.fl 0 = 0 := near64_zero
    have := congrArg (fun x : Except Err (FR double × FR double × FR double) => x.map fun y => y.2.2) hseq
    simp [Eng.seq, Except.map, hz] at this
    exact this.symm
  · obtain ⟨y, f, hy, hf, -, -, g3⟩ := IRM.seq_succ hseq
    obtain ⟨c', -, hseq'⟩ := hus k (by omega)
    rw [hseq'] at hy; cases hy
    rw [fseries_getElem? n F k (by omega)] at hf; cases hf
    have e6 : m'.efficacyMag = FR.fin 1 := by rw [hc'.efficacyMag, hpl'.efficacy]; simp [Qty.magIn]
    rw [e6] at g3
    exact IRM.fuptake hp' hpl' hq g3
end

/-! ## `TwoLayerModel()` with any drivers -/

section
variable {py : Bool}

/-- **C115** (`TwoLayerModel()` in binary64).  The forcing values are numbers within ±100 W/m² up to time `n`, or infinities.
Every reported temperature before time `n` which is a number is within 10⁻⁹ K, and every heat uptake which is a number within
10⁻⁷ W/m², of the exact solution of the discrete equations. -/
theorem C115_default {m m' : TLM U0 (F64 py)} (hm : TLM.init (U0.reg64 py) (TLM.defaultArgs (U0.reg64 py)) = .ok m)
    {d : DArg U0 (F64 py)} (h : TLM.simulate (U0.reg64 py) d m = (m', .ok ())) {n : ℕ} {F : ℕ → ℝ}
    (hd : ∀ i < n, ∀ v, ForcingNum (U0.reg64 py) d i v → v = F i) (hF : ∀ i < n, |F i| ≤ 100)
    {T TD U : ℕ → ℝ} (hex : TLEq TLPar.defaultD n F T TD U) :
    ∃ Tu Tl u, m'.outputs = [("Surface Temperature|Upper", "delta_degC", Tu), ("Surface Temperature|Lower", "delta_degC", Tl),
        ("Heat Uptake", "W/m^2", u)] ∧ ∀ k < n, ∀ v,
      (NumAt Tu k v → |v - T k| ≤ 1 / 10 ^ 9) ∧ (NumAt Tl k v → |v - TD k| ≤ 1 / 10 ^ 9) ∧
      (NumAt u k v → |v - U k| ≤ 1 / 10 ^ 7) := by
  obtain ⟨m₀, h1, h2⟩ := U0.reg64_default (py := py)
  rw [h1] at hm; cases hm
  obtain ⟨l1, l2⟩ := TLPar.defaultD_l
  obtain ⟨k1, k2⟩ := TLPar.defaultD_h
  set p := TLPar.defaultD with hpdef
  have eC : p.C = 209050000 := rfl
  have eD : p.D = 5017200000 := rfl
  have ee : p.e = 1 := rfl
  have et : p.dt = 31557600 := rfl
  have ea : p.a = 0 := rfl
  have hpos : p.Pos := TLPar.defaultD_pos
  have hl0 : 1.24 ≤ p.l := by norm_num at l1 ⊢; linarith
  have hfor : (p.C + p.e * p.D) / (p.dt * (p.l / 2)) ≤ 268 := by
    rw [eC, eD, ee, et, div_le_iff₀ (by linarith)]
    linarith
  have hmem : p.memoryAt (p.l / 2) ≤ 470 := by
    have h2 : p.D / (p.dt * p.h) ≤ 202 := by
      rw [eD, et, div_le_iff₀ (by linarith)]
      linarith
    unfold TLPar.memoryAt
    linarith
  have hmem0 : 0 ≤ p.memoryAt (p.l / 2) := by
    have hC := hpos.C; have hD := hpos.D; have he := hpos.e; have hh := hpos.h; have hdt := hpos.dt; have hl := hpos.l
    unfold TLPar.memoryAt
    positivity
  have hκ : 64 * (2⁻¹ : ℝ) ^ 53 * p.memoryAt (p.l / 2) * p.l ≤ p.l / 2 := by
    have : 64 * (2⁻¹ : ℝ) ^ 53 * p.memoryAt (p.l / 2) ≤ 1 / 2 := by
      calc _ ≤ 64 * (2⁻¹ : ℝ) ^ 53 * 470 := by gcongr
        _ ≤ _ := by norm_num
    have hl := hpos.l
    calc _ ≤ 1 / 2 * p.l := by gcongr
      _ = _ := by ring
  obtain ⟨Tu, Tl, u, ho, hb⟩ := C115_two_layer_accuracy (K := 81) (ν := p.l / 2) (U0.dimensional64 py) ⟨_, _, [], h1, rfl⟩ h2
    hpos (by norm_num) (by rw [ea, abs_zero]; ring) (by linarith)
    (by have := TLPar.defaultD_resolved.upper; rw [ea]; simp only [abs_zero, mul_zero, zero_mul, add_zero]; exact this)
    TLPar.defaultD_resolved.lower TLPar.defaultD_inRange64 hκ h hd
    (fun i hi => (hF i hi).trans (by rw [ea]; simp only [abs_zero, zero_mul, sub_zero]; linarith)) hex
  refine ⟨Tu, Tl, u, ho, fun k hk v => ?_⟩
  obtain ⟨b1, b2, b3⟩ := hb k hk v
  refine ⟨fun h => (b1 h).trans ?_, fun h => (b2 h).trans ?_, fun h => (b3 h).trans ?_⟩
  · calc _ ≤ 64 * (2⁻¹ : ℝ) ^ 53 * 81 * 268 := by gcongr
      _ ≤ _ := by norm_num
  · calc _ ≤ 64 * (2⁻¹ : ℝ) ^ 53 * 81 * 470 := by gcongr
      _ ≤ _ := by norm_num
  · calc _ ≤ 2⁻¹ ^ 53 * (32 + 128 * 470) * (81 * (209050000 + 5017200000) / 31557600 : ℝ) := by
          show 2⁻¹ ^ 53 * (32 + 128 * p.memoryAt (p.l / 2)) * (81 * (209050000 + 5017200000) / 31557600 : ℝ) ≤ _
          gcongr
      _ ≤ _ := by norm_num

theorem forcingNum_of {R : Registry U0 (F64 py)} {vals : List (F64 py)} {i : ℕ} {v : ℝ}
    (h : ForcingNum R (.qty ⟨1, vals⟩ R.wm2) i v) : NumAt vals i v := by
  obtain ⟨vals', u, x, hd, hx, y, hy, hv⟩ := h
  cases hd
  simp [Qty.toUnit, Qty.magIn] at hy
  subst hy
  exact ⟨x, hx, hv⟩

/-- Concrete case: the hypotheses of `C115_two_layer` and `C115_default`, for a forcing with an infinity in it. -/
example : ∃ (m m₁ : TLM U0 (F64 py)) (m' : TLM U0 (FR double)) (T TD U : ℕ → ℝ),
    TLM.init (U0.reg64 py) (TLM.defaultArgs (U0.reg64 py)) = .ok m ∧ m.Phys64 (U0.reg64 py) TLPar.defaultD ∧
    TLM.init U0.regD (TLM.defaultArgs U0.regD) = .ok m' ∧ m'.FPhys U0.regD TLPar.defaultD ∧ TLPar.defaultD.Ok ∧
    TLM.simulate (U0.reg64 py) (.qty ⟨1, [F64.num 1, F64.inf false, F64.num 2, F64.num 3]⟩ (U0.reg64 py).wm2) m = (m₁, .ok ()) ∧
    (∀ i < 4, ∀ v, ForcingNum (U0.reg64 py)
      (.qty ⟨1, [F64.num 1, F64.inf false, F64.num 2, F64.num 3]⟩ (U0.reg64 py).wm2) i v → v = if i = 0 then 1 else i) ∧
    IsFForcing U0.regD (.qty ⟨1, fseries 4 fun i => if i = 0 then 1 else i⟩ U0.regD.wm2) 4 (fun i => if i = 0 then 1 else i) ∧
    TLM.FProduces U0.regD m' (.qty ⟨1, fseries 4 fun i => if i = 0 then 1 else i⟩ U0.regD.wm2) 4 T TD U := by
  obtain ⟨m, h1, h2⟩ := U0.reg64_default (py := py)
  obtain ⟨m', h3, h4⟩ := U0.regD_default
  obtain ⟨m₁, hm₁⟩ := TLM.simulate_succeeds (U0.reg64 py) m (d := .qty ⟨1, [F64.num 1, F64.inf false, F64.num 2, F64.num 3]⟩
    (U0.reg64 py).wm2) (vals := [F64.num 1, F64.inf false, F64.num 2, F64.num 3]) (u := (U0.reg64 py).wm2)
    ⟨rfl, Or.inl rfl, rfl⟩
  refine ⟨m, m₁, m', _, _, _, h1, h2, h3, h4, TLPar.defaultD_pos.ok, hm₁, ?_, isFForcing_wm2 _ _,
    TLM.fproduces (double_accurate 1).zero (TLM.Reachable.coherent U0.regD U0.dimensionalD ⟨_, _, [], h3, rfl⟩) h4
      TLPar.defaultD_pos.ok (by norm_num) (isFForcing_wm2 _ _)⟩
  intro i hi v hv
  obtain ⟨x, hx, hxv⟩ := forcingNum_of hv
  match i, hi with
  | 0, _ => cases hx; cases hxv; norm_num
  | 1, _ => cases hx; cases hxv
  | 2, _ => cases hx; cases hxv; norm_num
  | 3, _ => cases hx; cases hxv; norm_num

/-- Concrete case: a run in which every output is a number, so that C115 says something about all of them. -/
example : ∃ (m : TLM U0 (F64 py)) (T TD U : ℕ → ℝ), TLM.init (U0.reg64 py) (TLM.defaultArgs (U0.reg64 py)) = .ok m ∧
    TLM.Produces64 (U0.reg64 py) m
      (.qty ⟨1, (List.range 1000).map fun i => F64.num (50 * (-1) ^ i)⟩ (U0.reg64 py).wm2) 1000 T TD U ∧
    ∀ i < 1000, ∀ v, ForcingNum (U0.reg64 py)
      (.qty ⟨1, (List.range 1000).map fun i => F64.num (50 * (-1) ^ i)⟩ (U0.reg64 py).wm2) i v → v = 50 * (-1) ^ i := by
  obtain ⟨m, h1, h2⟩ := U0.reg64_default (py := py)
  have hF : ∀ i : ℕ, |(50 * (-1) ^ i : ℝ)| ≤ 100 := fun i => by rw [abs_mul, abs_pow]; norm_num
  obtain ⟨T, TD, U, hp, -⟩ := C114_default h1 (n := 1000) (by norm_num) (isForcing64_nums 1000 fun i => 50 * (-1) ^ i)
    (fun i _ => hF i) (TLPar.sol_eq TLPar.defaultD_pos.ok 1000 fun i => 50 * (-1) ^ i)
  refine ⟨m, T, TD, U, h1, hp, fun i hi v hv => ?_⟩
  obtain ⟨x, hx, hxv⟩ := forcingNum_of hv
  simp [hi] at hx
  subst hx
  exact (Option.some.inj hxv).symm

/-- Concrete case: the hypotheses of `C115_impulse_response`, for a run in which every output is a number. -/
example : ∃ (m : IRM U0 (F64 py)) (m' : IRM U0 (FR double)) (T1 T2 T U S1 S2 S V : ℕ → ℝ),
    IRM.init (U0.reg64 py) (IRM.defaultArgs (U0.reg64 py)) = .ok m ∧ m.Phys64 (U0.reg64 py) IRPar.defaultD ∧
    m.PlainUnits64 (U0.reg64 py) ∧ IRM.init U0.regD (IRM.defaultArgs U0.regD) = .ok m' ∧
    m'.FPhys U0.regD IRPar.defaultD ∧ m'.PlainUnits U0.regD ∧ IRPar.defaultD.d1 ≠ 0 ∧ IRPar.defaultD.d2 ≠ 0 ∧
    2⁻¹ ^ 1022 ≤ IRPar.defaultD.q1 + IRPar.defaultD.q2 ∧ IRPar.defaultD.q1 + IRPar.defaultD.q2 ≤ 2 ^ 1023 ∧
    IRM.Produces64 (U0.reg64 py) m
      (.qty ⟨1, (List.range 1000).map fun i => F64.num (50 * (-1) ^ i)⟩ (U0.reg64 py).wm2) 1000 T1 T2 T U ∧
    (∀ i < 1000, ∀ v, ForcingNum (U0.reg64 py)
      (.qty ⟨1, (List.range 1000).map fun i => F64.num (50 * (-1) ^ i)⟩ (U0.reg64 py).wm2) i v → v = 50 * (-1) ^ i) ∧
    IsFForcing U0.regD (.qty ⟨1, fseries 1000 fun i => 50 * (-1) ^ i⟩ U0.regD.wm2) 1000 (fun i => 50 * (-1) ^ i) ∧
    IRM.FProduces U0.regD m' (.qty ⟨1, fseries 1000 fun i => 50 * (-1) ^ i⟩ U0.regD.wm2) 1000 S1 S2 S (fseries 1000 V) := by
  obtain ⟨m, h1, h2, h3⟩ := U0.reg64_default_ir (py := py)
  obtain ⟨m', h4, h5, h6⟩ := U0.regD_default_ir
  have hF : ∀ i : ℕ, |(50 * (-1) ^ i : ℝ)| ≤ 100 := fun i => by rw [abs_mul, abs_pow]; norm_num
  have hex := IRPar.sol_eq IRPar.defaultD 1 1000 fun i => 50 * (-1) ^ i
  obtain ⟨T1, T2, T, U, hp, -⟩ := C114_default_impulse_response h1 (n := 1000) (by norm_num)
    (isForcing64_nums 1000 fun i => 50 * (-1) ^ i) (fun i _ => hF i) hex
  obtain ⟨S1, S2, S, V, hp', -⟩ := C67_default_impulse_response h4 (n := 1000) (by norm_num)
    (isFForcing_wm2 1000 fun i => 50 * (-1) ^ i) (fun i _ => hF i) hex
  obtain ⟨⟨a1, a2⟩, ⟨b1, b2⟩, -⟩ := IRPar.defaultD_bounds
  refine ⟨m, m', T1, T2, T, U, S1, S2, S, V, h1, h2, h3, h4, h5, h6, IRPar.defaultD_ok.d1.ne',
    (IRPar.defaultD_ok.d1.trans IRPar.defaultD_ok.d2).ne', ?_, ?_, hp, ?_, isFForcing_wm2 _ _, hp'⟩
  · calc (2⁻¹ : ℝ) ^ 1022 ≤ 2⁻¹ ^ 10 := pow_le_pow_of_le_one (by norm_num) (by norm_num) (by norm_num)
      _ ≤ _ := by norm_num at *; linarith
  · refine le_trans ?_ (fits64 (x := 1) (by norm_num) |>.trans' (le_abs_self _))
    norm_num at *; linarith
  · intro i hi v hv
    obtain ⟨x, hx, hxv⟩ := forcingNum_of hv
    simp [hi] at hx
    subst hx
    exact (Option.some.inj hxv).symm
end
end TwoLayer
