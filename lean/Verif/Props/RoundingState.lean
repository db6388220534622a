import Verif.Proofs.RoundingState
import Verif.Props.Rounding

/-!
# C108: rounding errors with state-dependent feedback

C67 is about the linear model.  Here the feedback changes with the temperature (`a ≠ 0`), the rounded and the exact run
then feel different feedbacks, and what has to be shown is that the difference does not amplify itself.
`TLPar.memoryAt` is in `Spec/RoundingState.lean`; `FR r`, `Rounding.Accurate`, `double`, `TLM.FPhys`, `TLM.FProduces` and
`TLPar.InRange` are in `Spec/Rounding.lean`; the exact equations `TLEq` are those of `Spec/Equations.lean`.
-/

set_option linter.unusedSimpArgs false
set_option linter.unusedSectionVars false

namespace TwoLayer
section
variable {N : Type} [Fintype N] [DecidableEq N] {r : Rounding} {R : Registry N (FR r)}

/-- **C108** (two-layer).  Any `a`, positive parameters otherwise, every operation rounded with relative error at most `u`.
Let the forcing stay within `±(l - |a| K) K`, so that temperatures stay within `±K`, and let the feedback `l - 2 |a| K`
felt there by a perturbation be `2 ν > 0`.  If the step resolves both layers, then for a run of *any* length the three
reported series differ from the exact solution of the discrete (non-linear) equations by multiples of `u K` that do not
depend on the number of steps. -/
theorem C108_two_layer (D : R.Dimensional) {u μ Ω K ν : ℝ} (hr : r.Accurate u μ Ω) (hu : 0 ≤ u) (hu1 : u ≤ 1 / 100)
    {m : TLM N (FR r)} (hm : TLM.Reachable R m) {p : TLPar} (hp : m.FPhys R p) (hpos : p.Pos) (hK : 0 ≤ K)
    (hν : 2 * ν = p.l - 2 * |p.a| * K) (hν0 : 0 < ν) (hup : p.dt * (p.l + 3 * |p.a| * K + p.e * p.h) ≤ p.C)
    (hlo : p.dt * p.h ≤ p.D) (hin : p.InRange K μ Ω) (hκ : 64 * u * p.memoryAt ν * p.l ≤ ν) {d : DArg N (FR r)} {n : ℕ}
    (hn : n ≠ 0) {F : ℕ → ℝ} (hd : IsFForcing R d n F) (hF : ∀ i < n, |F i| ≤ (p.l - |p.a| * K) * K) {T TD U : ℕ → ℝ}
    (hex : TLEq p n F T TD U) :
    ∃ T' TD' U', TLM.FProduces R m d n T' TD' U' ∧ ∀ i < n,
      |T' i - T i| ≤ 64 * u * K * ((p.C + p.e * p.D) / (p.dt * ν)) ∧
      |TD' i - TD i| ≤ 64 * u * K * p.memoryAt ν ∧
      |U' i - U i| ≤ u * (32 + 128 * p.memoryAt ν) * (K * (p.C + p.D) / p.dt) ∧
      |T i| ≤ K ∧ |TD i| ≤ K := by
  refine ⟨_, _, _, TLM.fproduces hr.zero (TLM.Reachable.coherent R D hm) hp hpos.ok hn hd, fun i hi => ?_⟩
  obtain ⟨e1, e2, e3⟩ := hex.unique hpos.ok i hi
  rw [e1, e2, e3]
  obtain ⟨h1, h2, -, -, h3, h4⟩ := TLPar.fsol_err_state hr hu hu1 hpos hν hν0 hup hlo hin hK hκ hF i hi.le
  exact ⟨h1, h2, TLPar.fsol_uptake_state hr hu hu1 hpos hν hν0 hup hlo hin hK hκ hF i hi.le, h3, h4⟩
end

/-! ## `TwoLayerModel(a=a)` in double precision -/

/-- the arguments of `TwoLayerModel(a=a)` -/
noncomputable def argsA (a : ℝ) : TLM.Args U0 (FR double) :=
  { TLM.defaultArgs U0.regD with a := .qty ⟨FR.fin a, U0.regD.wm2cc⟩ }

/-- the parameters it holds -/
noncomputable def TLPar.defaultA (a : ℝ) : TLPar := { TLPar.defaultD with a := a }

theorem U0.regD_a (a : ℝ) : ∃ m, TLM.init U0.regD (argsA a) = .ok m ∧ m.FPhys U0.regD (TLPar.defaultA a) := by
  obtain ⟨m, h1, h2⟩ := U0.regD_default
  have hi := TLM.init_good U0.dimensionalD (du := ⟨Arith.ofNat 50, U0.regD.m⟩) (dl := ⟨Arith.ofNat 1200, U0.regD.m⟩)
    (l := ⟨Arith.dec 374 2 / Arith.ofNat 3, U0.regD.wm2c⟩) (a := ⟨Arith.dec 0 1, U0.regD.wm2cc⟩)
    (ef := ⟨Arith.dec 10 1, U0.regD.one⟩) (et := ⟨Arith.dec 8 1, U0.regD.wm2c⟩)
    (dt := ⟨(Qty.mk (Arith.ofNat 1) U0.regD.yr).magIn U0.regD U0.regD.s, U0.regD.s⟩)
    (Or.inl rfl) (Or.inl rfl) (Or.inl rfl) (Or.inl rfl) (Or.inl rfl) (Or.inl rfl) (Or.inl rfl)
  have e := hi.symm.trans h1
  rw [Except.ok.injEq] at e
  subst e
  refine ⟨_, TLM.init_good U0.dimensionalD (Or.inl rfl) (Or.inl rfl) (Or.inl rfl) (Or.inl rfl) (Or.inl rfl)
    (Or.inl rfl) (Or.inl rfl), ⟨h2.C, h2.D, h2.lambda0, ?_, h2.efficacy, h2.eta, h2.dt⟩⟩
  show IsFNum U0.regD ⟨FR.fin a, U0.regD.wm2cc⟩ U0.regD.wm2cc a
  simp [IsFNum, Qty.toUnit, Qty.magIn]

theorem TLPar.defaultA_inRange (a : ℝ) : (TLPar.defaultA a).InRange 10 (2⁻¹ ^ 1022) (10 ^ 20) := by
  obtain ⟨l1, l2⟩ := defaultD_l
  obtain ⟨h1, h2⟩ := defaultD_h
  have hμ : (2⁻¹ : ℝ) ^ 1022 ≤ 10⁻¹ ^ 20 := by
    calc (2⁻¹ : ℝ) ^ 1022 ≤ 2⁻¹ ^ 100 := pow_le_pow_of_le_one (by norm_num) (by norm_num) (by norm_num)
      _ ≤ _ := by norm_num
  have key : ∀ x : ℝ, 10⁻¹ ^ 20 ≤ x → x ≤ 10 ^ 18 → (2⁻¹ : ℝ) ^ 1022 ≤ x ∧ 32 * x ≤ 10 ^ 20 :=
    fun x a b => ⟨hμ.trans a, by linarith⟩
  have eC : (defaultA a).C = 209050000 := rfl
  have eD : (defaultA a).D = 5017200000 := rfl
  have ee : (defaultA a).e = 1 := rfl
  have et : (defaultA a).dt = 31557600 := rfl
  have el : (defaultA a).l = defaultD.l := rfl
  have eh : (defaultA a).h = defaultD.h := rfl
  unfold InRange
  rw [eC, eD, ee, et, el, eh]
  generalize defaultD.l = l at *
  generalize defaultD.h = h at *
  simp only [List.forall_mem_cons, List.not_mem_nil, IsEmpty.forall_iff, forall_const, and_true]
  refine ⟨?_, ?_, ?_, ?_, ?_, ?_, ?_, ?_, ?_, ?_, ?_, ?_, ?_, ?_, ?_⟩ <;> apply key <;> norm_num at * <;> linarith

theorem TLPar.defaultA_pos (a : ℝ) : (TLPar.defaultA a).Pos :=
  ⟨defaultD_pos.C, defaultD_pos.D, defaultD_pos.l, defaultD_pos.e, defaultD_pos.h, defaultD_pos.dt⟩

/-- **C108** (`TwoLayerModel(a=a)` in double precision, `|a| ≤ 0.05 W/m²/K²`).  Whatever the length of the run, under any
forcing within ±7 W/m² the reported temperatures are within 10⁻⁹ K, and the heat uptake within 10⁻⁷ W/m², of the exact
solution of the non-linear discrete equations with the parameters the object holds. -/
theorem C108_default {a : ℝ} (ha : |a| ≤ 1 / 20) {m : TLM U0 (FR double)} (hm : TLM.init U0.regD (argsA a) = .ok m) {n : ℕ}
    (hn : n ≠ 0) {d : DArg U0 (FR double)} {F : ℕ → ℝ} (hd : IsFForcing U0.regD d n F) (hF : ∀ i < n, |F i| ≤ 7)
    {T TD U : ℕ → ℝ} (hex : TLEq (TLPar.defaultA a) n F T TD U) :
    ∃ T' TD' U', TLM.FProduces U0.regD m d n T' TD' U' ∧ ∀ i < n,
      |T' i - T i| ≤ 1 / 10 ^ 9 ∧ |TD' i - TD i| ≤ 1 / 10 ^ 9 ∧ |U' i - U i| ≤ 1 / 10 ^ 7 := by
  obtain ⟨m', h1, h2⟩ := U0.regD_a a
  rw [h1] at hm; cases hm
  obtain ⟨l1, l2⟩ := TLPar.defaultD_l
  obtain ⟨k1, k2⟩ := TLPar.defaultD_h
  set p := TLPar.defaultA a with hpdef
  have eC : p.C = 209050000 := rfl
  have eD : p.D = 5017200000 := rfl
  have ee : p.e = 1 := rfl
  have et : p.dt = 31557600 := rfl
  have el : p.l = TLPar.defaultD.l := rfl
  have eh : p.h = TLPar.defaultD.h := rfl
  have ea : p.a = a := rfl
  have ha0 := abs_nonneg a
  set ν := (p.l - 2 * |p.a| * 10) / 2 with hν
  have hν1 : 0.12 ≤ ν := by
    rw [hν, el, ea]
    have h1 := l1
    norm_num at h1 ha ⊢
    linarith only [h1, ha]
  have hfor : (p.C + p.e * p.D) / (p.dt * ν) ≤ 1381 := by
    rw [eC, eD, ee, et, div_le_iff₀ (by linarith)]
    linarith
  have hmem : p.memoryAt ν ≤ 1583 := by
    have h2 : p.D / (p.dt * p.h) ≤ 202 := by
      rw [eD, et, eh, div_le_iff₀ (by linarith)]
      linarith
    unfold TLPar.memoryAt
    linarith
  have hmem0 : 0 ≤ p.memoryAt ν := by
    have := TLPar.defaultA_pos a
    have hC := this.C; have hD := this.D; have he := this.e; have hh := this.h; have hdt := this.dt
    have : 0 < ν := by linarith
    unfold TLPar.memoryAt
    positivity
  have hκ : 64 * (2⁻¹ : ℝ) ^ 53 * p.memoryAt ν * p.l ≤ ν := by
    calc 64 * (2⁻¹ : ℝ) ^ 53 * p.memoryAt ν * p.l ≤ 64 * (2⁻¹ : ℝ) ^ 53 * 1583 * 1.25 := by rw [el]; gcongr
      _ ≤ 0.12 := by norm_num
      _ ≤ ν := hν1
  obtain ⟨T', TD', U', hrun, hb⟩ := C108_two_layer (K := 10) (ν := ν) U0.dimensionalD (double_accurate (10 ^ 20))
    (by positivity) (by norm_num) ⟨_, _, [], h1, rfl⟩ h2 (TLPar.defaultA_pos a) (by norm_num) (by rw [hν]; ring)
    (by linarith) (by show p.dt * (p.l + 3 * |p.a| * 10 + p.e * p.h) ≤ p.C; rw [et, el, ea, ee, eh, eC]; linarith)
    (by show p.dt * p.h ≤ p.D; rw [et, eh, eD]; linarith) (TLPar.defaultA_inRange a) hκ hn hd
    (fun i hi => (hF i hi).trans (by show _ ≤ (p.l - |p.a| * 10) * 10; rw [el, ea]; norm_num at *; linarith)) hex
  refine ⟨T', TD', U', hrun, fun i hi => ?_⟩
  obtain ⟨b1, b2, b3, -, -⟩ := hb i hi
  refine ⟨b1.trans ?_, b2.trans ?_, b3.trans ?_⟩
  · calc _ ≤ 64 * (2⁻¹ : ℝ) ^ 53 * 10 * 1381 := by gcongr
      _ ≤ _ := by norm_num
  · calc _ ≤ 64 * (2⁻¹ : ℝ) ^ 53 * 10 * 1583 := by gcongr
      _ ≤ _ := by norm_num
  · calc _ ≤ 2⁻¹ ^ 53 * (32 + 128 * 1583) * (10 * (209050000 + 5017200000) / 31557600 : ℝ) := by
          show 2⁻¹ ^ 53 * (32 + 128 * p.memoryAt ν) * (10 * (209050000 + 5017200000) / 31557600 : ℝ) ≤ _
          gcongr
      _ ≤ _ := by norm_num

/-- Concrete case: `a = 0.05`, a thousand years at 7 W/m². -/
example : ∃ m T TD U, TLM.init U0.regD (argsA (1 / 20)) = .ok m ∧ |(1 / 20 : ℝ)| ≤ 1 / 20 ∧
    IsFForcing U0.regD (.qty ⟨1, fseries 1000 fun _ => 7⟩ U0.regD.wm2) 1000 (fun _ => 7) ∧
    (∀ i < 1000, |(fun _ : ℕ => (7 : ℝ)) i| ≤ 7) ∧ TLEq (TLPar.defaultA (1 / 20)) 1000 (fun _ => 7) T TD U := by
  obtain ⟨m, h1, -⟩ := U0.regD_a (1 / 20)
  have hf : ∀ n, IsFForcing U0.regD (.qty ⟨1, fseries n fun _ => 7⟩ U0.regD.wm2) n (fun _ => 7) := by
    refine fun n => ⟨_, _, rfl, fseries_length _ _, fun i hi => ?_⟩
    have : (fseries n fun _ => 7 : List (FR double))[i] = FR.fin 7 := by simp [fseries]
    rw [this]
    exact ⟨by simp [IsFNum, Qty.toUnit, Qty.magIn], rfl⟩
  exact ⟨m, _, _, _, h1, by norm_num [abs_of_pos], hf 1000, fun i _ => by norm_num, TLPar.sol_eq (TLPar.defaultA_pos _).ok 1000 _⟩

end TwoLayer
