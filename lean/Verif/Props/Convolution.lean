import Verif.Proofs.TLFinite
import Verif.Props.Convert
import Verif.Props.TwoLayer
import Verif.Props.ImpulseResponse

/-!
# C96: the response to a unit pulse determines every response

Conventions as in `Props/TwoLayer.lean` and `Props/ImpulseResponse.lean`.
-/

set_option linter.unusedSimpArgs false
set_option linter.unusedSectionVars false

namespace TwoLayer

/-- 1 W/m² during the first step, nothing afterwards -/
def pulse (i : ℕ) : ℝ := if i = 0 then 1 else 0

private theorem conv {Φ : (ℕ → ℝ) → ℕ → ℝ}
    (lin : ∀ (x y : ℝ) (F G : ℕ → ℝ) (i : ℕ), Φ (fun j => x * F j + y * G j) i = x * Φ F i + y * Φ G i)
    (congr : ∀ (F G : ℕ → ℝ) (i : ℕ), (∀ j < i, F j = G j) → Φ F i = Φ G i)
    (shift : ∀ (k : ℕ) (F G : ℕ → ℝ), (∀ i < k, G i = 0) → (∀ i, G (k + i) = F i) → ∀ i, Φ G (k + i) = Φ F i)
    (F : ℕ → ℝ) (i : ℕ) : Φ F i = ∑ j ∈ Finset.range i, F j * Φ pulse (i - j) := by
  have key : ∀ k ≤ i, Φ (fun j => if j < k then F j else 0) i = ∑ j ∈ Finset.range k, F j * Φ pulse (i - j) := by
    intro k
    induction k with
    | zero =>
      intro _
      have := lin 0 0 F F i
      simpa using this
    | succ k ih =>
      intro hk
      have e : (fun j => if j < k + 1 then F j else 0) =
          fun j => 1 * (if j < k then F j else 0) + F k * (if j = k then 1 else 0) := by
        funext j
        rcases lt_trichotomy j k with h | h | h
        · simp [h, h.ne, Nat.lt_succ_of_lt h]
        · subst h; simp
        · simp [h.ne', not_lt.mpr h.le, show ¬ j < k + 1 by omega]
      rw [e, lin, ih (by omega), Finset.sum_range_succ, one_mul]
      congr 2
      have := shift k pulse (fun j => if j = k then 1 else 0) (fun i hi => by simp [hi.ne]) (fun i => by
        simp [pulse]) (i - k)
      rw [show k + (i - k) = i by omega] at this
      exact this
  rw [← key i le_rfl]
  exact congr _ _ _ fun j hj => by simp [hj]

variable {N : Type} [Fintype N] [DecidableEq N] {R : Registry N XR} (L : R.Lawful)
include L

/-- Two-layer model with `a = 0`: every response is the forcing convolved with the response `P`, `PD`, `PU` of the same
object to a unit pulse in the first step. -/
theorem C96_two_layer {m : TLM N XR} (hm : TLM.Reachable R m) {p : TLPar} (hp : m.Phys R p) (ha : p.a = 0)
    {d₀ d : DArg N XR} {n : ℕ} {F : ℕ → ℝ} (hd₀ : IsForcing R d₀ n pulse) (hd : IsForcing R d n F)
    {P PD PU T TD U : ℕ → ℝ} (h₀ : TLM.Produces R m d₀ n P PD PU) (h : TLM.Produces R m d n T TD U) :
    ∀ i < n, T i = ∑ j ∈ Finset.range i, F j * P (i - j) ∧ TD i = ∑ j ∈ Finset.range i, F j * PD (i - j) ∧
      U i = ∑ j ∈ Finset.range i, F j * PU (i - j) := by
  have v := TLM.produces_any L (TLM.Reachable.coherent R L.toDimensional hm) hp hd h
  have v₀ := TLM.produces_any L (TLM.Reachable.coherent R L.toDimensional hm) hp hd₀ h₀
  intro i hi
  obtain ⟨a, b, c⟩ := v i hi
  refine ⟨?_, ?_, ?_⟩
  · rw [a, conv (Φ := p.T) (fun x y F G i => (TLPar.linear ha x y F G i).1)
      (fun F G i hFG => (TLPar.congr_upto hFG i le_rfl).1) (fun k F G h0 h1 i => (TLPar.shift h0 h1 i).1)]
    exact Finset.sum_congr rfl fun j hj => by rw [(v₀ (i - j) (by omega)).1]
  · rw [b, conv (Φ := p.TD) (fun x y F G i => (TLPar.linear ha x y F G i).2.1)
      (fun F G i hFG => (TLPar.congr_upto hFG i le_rfl).2.1) (fun k F G h0 h1 i => (TLPar.shift h0 h1 i).2.1)]
    exact Finset.sum_congr rfl fun j hj => by rw [(v₀ (i - j) (by omega)).2.1]
  · rw [c, conv (Φ := p.U) (fun x y F G i => (TLPar.linear ha x y F G i).2.2)
      (fun F G i hFG => (TLPar.congr_upto hFG i le_rfl).2.2) (fun k F G h0 h1 i => (TLPar.shift h0 h1 i).2.2)]
    exact Finset.sum_congr rfl fun j hj => by rw [(v₀ (i - j) (by omega)).2.2]

/-- The pulse response of the two-layer model, in terms of the parameters `get_impulse_response_parameters` returns
(timescales in seconds): two geometric decays. -/
theorem C96_two_layer_pulse {m : TLM N XR} (hm : TLM.Reachable R m) {p : TLPar} (hp : m.Phys R p) (hpos : p.Pos)
    (ha : p.a = 0) {r : TLM.IRParams N XR} (hr : m.getImpulseResponseParameters R = .ok r) {q1 q2 d1 d2 : ℝ}
    (h1 : IsNum R r.q1 R.cwm2 q1) (h2 : IsNum R r.q2 R.cwm2 q2) (h3 : IsNum R r.d1 R.s d1) (h4 : IsNum R r.d2 R.s d2)
    {d₀ : DArg N XR} {n : ℕ} (hd₀ : IsForcing R d₀ n pulse) {P PD PU : ℕ → ℝ} (h₀ : TLM.Produces R m d₀ n P PD PU) :
    ∀ i, i + 1 < n → P (i + 1) = q1 * (p.dt / d1) * (1 - p.dt / d1) ^ i + q2 * (p.dt / d2) * (1 - p.dt / d2) ^ i := by
  obtain ⟨y1, y2, z1, z2, e1, e2, hs⟩ := C40_euler L hm hp hpos ha hr h1 h2 h3 h4 hd₀ h₀
  obtain ⟨r', hr', hph', -, -, -, s1, s2⟩ := TLM.getIR_phys L hp hpos ha
  rw [hr] at hr'; cases hr'
  obtain rfl := h3.inj s1
  obtain rfl := h4.inj s2
  have hdt := hpos.dt
  have key : ∀ {q d : ℝ} {y : ℕ → ℝ}, d ≠ 0 → y 0 = 0 → (∀ i, d * ((y (i + 1) - y i) / p.dt) = q * pulse i - y i) →
      ∀ i, y (i + 1) = q * (p.dt / d) * (1 - p.dt / d) ^ i := by
    intro q d y hd hy h i
    have hstep : ∀ i, y (i + 1) = y i + p.dt / d * (q * pulse i - y i) := by
      intro i; rw [← h i]; field_simp; ring
    induction i with
    | zero => rw [hstep, hy]; simp [pulse]; ring
    | succ i ih => rw [hstep, ih, pow_succ]; simp [pulse]; ring
  intro i hi
  rw [(hs (i + 1) hi).1, key hpos.tau1_pos.ne' z1 e1, key hpos.tau2_pos.ne' z2 e2]

/-- Impulse response model, every time step: the same for each box and for heat uptake, and the pulse response of box `i` is
`q_i (1 - exp(-dt/d_i)) exp(-k dt/d_i)`, `k` steps after the pulse. -/
theorem C96_impulse_response {m : IRM N XR} (hm : IRM.Reachable R m) {p : IRPar} (hp : m.Phys R p) (hok : p.Boxes)
    {d₀ d : DArg N XR} {n : ℕ} {F : ℕ → ℝ} (hd₀ : IsForcing R d₀ n pulse) (hd : IsForcing R d n F)
    {P1 P2 PU T1 T2 U : ℕ → ℝ} (h₀ : IRM.Produces R m d₀ n P1 P2 PU) (h : IRM.Produces R m d n T1 T2 U) :
    (∀ i < n, T1 i = ∑ j ∈ Finset.range i, F j * P1 (i - j) ∧ T2 i = ∑ j ∈ Finset.range i, F j * P2 (i - j) ∧
      U i = ∑ j ∈ Finset.range i, F j * PU (i - j)) ∧
    ∀ i, i + 1 < n → P1 (i + 1) = p.q1 * (1 - Real.exp (-(p.dt / p.d1))) * Real.exp (-(i * p.dt / p.d1)) ∧
      P2 (i + 1) = p.q2 * (1 - Real.exp (-(p.dt / p.d2))) * Real.exp (-(i * p.dt / p.d2)) := by
  obtain ⟨κ, -, hκ⟩ := IRM.kappa L hp.q1
  have v := IRM.produces_val' L (IRM.Reachable.coherent R hm) hp hok hκ hd h
  have v₀ := IRM.produces_val' L (IRM.Reachable.coherent R hm) hp hok hκ hd₀ h₀
  have hb : ∀ q d dt : ℝ, ∀ F i, boxSol q d dt F i = ∑ j ∈ Finset.range i, F j * boxSol q d dt pulse (i - j) := fun q d dt F i =>
    conv (Φ := boxSol q d dt) (fun x y F G i => boxSol_linear x y F G i) (fun F G i hFG => boxSol_congr hFG i le_rfl)
      (fun k F G h0 h1 i => boxSol_shift h0 h1 i) F i
  have hU : ∀ F i, p.U κ F i = ∑ j ∈ Finset.range i, F j * p.U κ pulse (i - j) := by
    refine fun F i => conv (Φ := p.U κ) (fun x y F G i => ?_) (fun F G i hFG => ?_) (fun k F G h0 h1 i => ?_) F i
    · cases i with
      | zero => simp
      | succ i =>
        rw [IRPar.U_succ, IRPar.U_succ, IRPar.U_succ]
        simp only [IRPar.T1, IRPar.T2]
        rw [boxSol_linear, boxSol_linear]; ring
    · cases i with
      | zero => rfl
      | succ i =>
        rw [IRPar.U_succ, IRPar.U_succ]
        simp only [IRPar.T1, IRPar.T2]
        rw [boxSol_congr (k := i) (fun j hj => hFG j (by omega)) i le_rfl,
          boxSol_congr (k := i) (fun j hj => hFG j (by omega)) i le_rfl, hFG i (by omega)]
    · cases i with
      | zero =>
        cases k with
        | zero => rfl
        | succ k =>
          show p.U κ G (k + 1) = 0
          rw [IRPar.U_succ]
          simp only [IRPar.T1, IRPar.T2]
          rw [boxSol_zero (k := k) (fun j hj => h0 j (by omega)) k le_rfl,
            boxSol_zero (k := k) (fun j hj => h0 j (by omega)) k le_rfl, h0 k (by omega)]
          simp
      | succ i =>
        rw [← Nat.add_assoc, IRPar.U_succ, IRPar.U_succ]
        simp only [IRPar.T1, IRPar.T2]
        rw [boxSol_shift h0 h1, boxSol_shift h0 h1, h1]
  have hpulse : ∀ q d dt : ℝ, ∀ i : ℕ, boxSol q d dt pulse (i + 1) = q * (1 - Real.exp (-(dt / d))) * Real.exp (-(i * dt / d)) := by
    intro q d dt i
    induction i with
    | zero => rw [boxSol_succ]; simp [pulse, boxSol]; ring
    | succ i ih =>
      rw [boxSol_succ, ih]
      have : Real.exp (-(((i + 1 : ℕ) : ℝ) * dt / d)) = Real.exp (-(i * dt / d)) * Real.exp (-(dt / d)) := by
        rw [← Real.exp_add]; congr 1; push_cast; ring
      rw [this]; simp [pulse]; ring
  refine ⟨fun i hi => ?_, fun i hi => ?_⟩
  · obtain ⟨a, b, c⟩ := v i hi
    refine ⟨?_, ?_, ?_⟩
    · rw [a, IRPar.T1, hb]
      exact Finset.sum_congr rfl fun j hj => by rw [(v₀ (i - j) (by omega)).1]; rfl
    · rw [b, IRPar.T2, hb]
      exact Finset.sum_congr rfl fun j hj => by rw [(v₀ (i - j) (by omega)).2.1]; rfl
    · rw [c, hU]
      exact Finset.sum_congr rfl fun j hj => by rw [(v₀ (i - j) (by omega)).2.2]
  · obtain ⟨a, b, -⟩ := v₀ (i + 1) hi
    exact ⟨a.trans (hpulse _ _ _ i), b.trans (hpulse _ _ _ i)⟩

omit L in
/-- Concrete case: on one default object of each class, a pulse run and a run under rising forcing, 100 steps each. -/
example : TLPar.default.a = 0 ∧ TLPar.default.Pos ∧ ∃ (m : TLM U0 XR) (m' : IRM U0 XR),
    TLM.Reachable U0.reg m ∧ m.Phys U0.reg TLPar.default ∧ IRM.Reachable U0.reg m' ∧ m'.Phys U0.reg IRPar.default ∧
    ∃ d₀ d T TD U P PD PU T1 T2 U' P1 P2 PU', IsForcing U0.reg d₀ 100 pulse ∧
      IsForcing U0.reg d 100 (fun i => 0.04 * i) ∧ TLM.Produces U0.reg m d 100 T TD U ∧
      TLM.Produces U0.reg m d₀ 100 P PD PU ∧ IRM.Produces U0.reg m' d 100 T1 T2 U' ∧
      IRM.Produces U0.reg m' d₀ 100 P1 P2 PU' := by
  refine ⟨rfl, TLPar.default_pos, ?_⟩
  obtain ⟨m, h1, h2, h3⟩ := TLM.any_run U0.lawful TLPar.default TLPar.default_ok (n := 100) (by norm_num) (fun i => 0.04 * i)
  obtain ⟨P, PD, PU, h6, -⟩ := C15_two_layer_exists_unique U0.lawful h1 h2 TLPar.default_ok (n := 100) (by norm_num)
    (forcing_exists (R := U0.reg) 100 pulse)
  obtain ⟨m', g1, g2, g4, g5, g6, g3⟩ := IRM.any_run U0.lawful IRPar.default IRPar.default_ok (n := 100) (by norm_num)
    (fun i => 0.04 * i)
  have g7 := IRM.produces_sol' U0.lawful (IRM.Reachable.coherent _ g1) g2 IRPar.default_ok.boxes (κ := 1)
    (by rw [g4]; exact isNum_self _ _) (n := 100) (by norm_num) (forcing_exists 100 pulse)
    (Or.inl (Or.inr (by rw [g5, g6]; simp [Registry.one])))
  exact ⟨m, m', h1, h2, g1, g2, _, _, _, _, _, _, _, _, _, _, _, _, _, _, forcing_exists _ _,
    forcing_exists _ _, h3, h6, g3, g7⟩

end TwoLayer
