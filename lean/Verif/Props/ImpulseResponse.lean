import Verif.Proofs.IRMath
import Verif.Proofs.Init
import Verif.Proofs.IRLinear

/-!
# C19, C20, C23 and C28–C34: what an `ImpulseResponseModel` run computes

As for the two-layer model: `m` is an object a program can hold, `p` its public parameters as real numbers, `d` a
driver argument holding `F 0, …, F (n-1)` (W/m²), and `IRM.Produces R m d n T1 T2 U` says that `set_drivers(d)`,
`reset()`, `run()` succeed on `m` and report boxes `T1`, `T2`, surface temperature `T1 + T2` and heat uptake `U`.
-/

set_option linter.unusedSimpArgs false
set_option linter.unusedSectionVars false

namespace TwoLayer

/-! ## C32 Surface temperature is the sum of the boxes (any arithmetic) -/
section
variable {N α : Type} [Fintype N] [DecidableEq N] [Arith α]

/-- After a successful run the reported series are the boxes, their element-wise sum and heat uptake, with these
names and units and one value per driver. -/
theorem C32_impulse_response {R : Registry N α} {m m' : IRM N α} {a : Arr α} {u : Units N}
    (h : IRM.simulate R (.qty a u) m = (m', .ok ())) :
    ∃ A B S U : List α, m'.outputs = [("Surface Temperature|Box 1", "delta_degC", A),
        ("Surface Temperature|Box 2", "delta_degC", B), ("Surface Temperature", "delta_degC", S),
        ("Heat Uptake", "W/m^2", U)] ∧
      A.length = a.vals.length ∧ B.length = a.vals.length ∧ S.length = a.vals.length ∧ U.length = a.vals.length ∧
      ∀ i : Nat, i < a.vals.length → ∃ x y, A[i]? = some x ∧ B[i]? = some y ∧ S[i]? = some (x + y) := by
  obtain ⟨vals, u', v, hg, rfl, hI⟩ := IRM.simulate_ok h
  obtain ⟨h1, -⟩ := hg
  cases h1
  have lA := hI.lA; have lB := hI.lB; have lC := hI.lC
  rw [modelF_length] at lA lB lC
  refine ⟨v.A, v.B, List.zipWith (· + ·) v.A v.B, v.C, rfl, lA, lB, by simp [lA, lB], lC, fun i hi => ?_⟩
  have h1 : i < v.A.length := by rw [lA]; exact hi
  have h2 : i < v.B.length := by rw [lB]; exact hi
  refine ⟨v.A[i], v.B[i], List.getElem?_eq_getElem h1, List.getElem?_eq_getElem h2, ?_⟩
  rw [List.getElem?_zipWith, List.getElem?_eq_getElem h1, List.getElem?_eq_getElem h2]

/-- The two-layer model's series, with their names and units. -/
theorem C32_two_layer {R : Registry N α} {m m' : TLM N α} {a : Arr α} {u : Units N}
    (h : TLM.simulate R (.qty a u) m = (m', .ok ())) :
    ∃ A B U : List α, m'.outputs = [("Surface Temperature|Upper", "delta_degC", A),
        ("Surface Temperature|Lower", "delta_degC", B), ("Heat Uptake", "W/m^2", U)] ∧
      A.length = a.vals.length ∧ B.length = a.vals.length ∧ U.length = a.vals.length := by
  obtain ⟨vals, u', v, hg, rfl, hI⟩ := TLM.simulate_ok h
  obtain ⟨h1, -⟩ := hg
  cases h1
  have lA := hI.lA; have lB := hI.lB; have lC := hI.lC
  rw [modelF_length] at lA lB lC
  exact ⟨v.A, v.B, v.C, rfl, lA, lB, lC⟩

/-! ## C34 Efficacy does not alter the temperatures (any arithmetic) -/

/-- Two objects whose public parameters differ at most in efficacy: if both runs succeed, boxes and surface
temperature are the same. -/
theorem C34_impulse_response [DecidableEq α] {R : Registry N α} {m₁ m₂ m₁' m₂' : IRM N α}
    (h₁ : IRM.Reachable R m₁) (h₂ : IRM.Reachable R m₂)
    (hp : m₂.pub = { m₁.pub with efficacy := m₂.efficacy }) {d : DArg N α}
    (r₁ : IRM.simulate R d m₁ = (m₁', .ok ())) (r₂ : IRM.simulate R d m₂ = (m₂', .ok ())) :
    m₁'.outputs.take 3 = m₂'.outputs.take 3 := by
  have c₁ := IRM.Reachable.coherent R h₁
  have c₂ := IRM.Reachable.coherent R h₂
  simp only [IRM.pub, IRM.Public.mk.injEq, true_and] at hp
  obtain ⟨p1, p2, p3, p4, p5⟩ := hp
  obtain ⟨vals, u, v, hg, rfl, hI⟩ := IRM.simulate_ok r₁
  obtain ⟨vals', u', v', hg', rfl, hI'⟩ := IRM.simulate_ok r₂
  obtain ⟨hd, -⟩ := hg
  obtain ⟨hd', -⟩ := hg'
  rw [hd] at hd'
  cases hd'
  have key : ∀ i x y, (m₁.eng R).seq (modelF R vals u) i = .ok x → (m₂.eng R).seq (modelF R vals u) i = .ok y →
      x.1 = y.1 ∧ x.2.1 = y.2.1 := by
    intro i
    induction i with
    | zero =>
      intro x y hx hy
      simp only [Eng.seq, Except.ok.injEq] at hx hy
      subst hx hy; simp
    | succ i ih =>
      intro x y hx hy
      simp only [Eng.seq] at hx hy
      cases hs : (m₁.eng R).seq (modelF R vals u) i with
      | error e => rw [hs] at hx; cases hx
      | ok s =>
        cases ht : (m₂.eng R).seq (modelF R vals u) i with
        | error e => rw [ht] at hy; cases hy
        | ok t =>
          obtain ⟨a, b, c⟩ := s
          obtain ⟨a', b', c'⟩ := t
          obtain ⟨rfl, rfl⟩ := ih _ _ hs ht
          rw [hs] at hx
          rw [ht] at hy
          simp only at hx hy
          have en : (m₂.eng R).nA = (m₁.eng R).nA ∧ (m₂.eng R).nB = (m₁.eng R).nB := by
            simp only [IRM.eng, c₁.q1Mag, c₂.q1Mag, c₁.q2Mag, c₂.q2Mag, c₁.d1Mag, c₂.d1Mag, c₁.d2Mag, c₂.d2Mag,
              c₁.core.dtMag, c₂.core.dtMag, p1, p2, p3, p4, p5, and_self]
          rw [en.1, en.2] at hy
          split at hx
          · cases hx
          · next f hf =>
            rw [hf] at hy
            simp only at hy
            split at hx
            · cases hx
            · next a1 ha1 =>
              rw [ha1] at hy
              simp only at hy
              split at hx
              · cases hx
              · next b1 hb1 =>
                rw [hb1] at hy
                simp only at hy
                split at hx
                · cases hx
                · split at hy
                  · cases hy
                  · injection hx with hx
                    injection hy with hy
                    subst hx hy
                    exact ⟨rfl, rfl⟩
  have hA : v.A = v'.A := by
    apply List.ext_getElem?
    intro i
    by_cases hi : i < vals.length
    · obtain ⟨a, b, c, g1, g2, -⟩ := hI.done i hi
      obtain ⟨a', b', c', g1', g2', -⟩ := hI'.done i hi
      rw [g2, g2']; exact congrArg some (key i _ _ g1 g1').1
    · rw [List.getElem?_eq_none (by rw [hI.lA, modelF_length]; omega),
        List.getElem?_eq_none (by rw [hI'.lA, modelF_length]; omega)]
  have hB : v.B = v'.B := by
    apply List.ext_getElem?
    intro i
    by_cases hi : i < vals.length
    · obtain ⟨a, b, c, g1, -, g2, -⟩ := hI.done i hi
      obtain ⟨a', b', c', g1', -, g2', -⟩ := hI'.done i hi
      rw [g2, g2']; exact congrArg some (key i _ _ g1 g1').2
    · rw [List.getElem?_eq_none (by rw [hI.lB, modelF_length]; omega),
        List.getElem?_eq_none (by rw [hI'.lB, modelF_length]; omega)]
  simp [IRM.outputs, IRM.setView, hA, hB]
end

variable {N : Type} [Fintype N] [DecidableEq N] {R : Registry N XR} (L : R.Lawful)
include L

private theorem box {m : IRM N XR} (hm : IRM.Reachable R m) {p : IRPar} (hp : m.Phys R p)
    {d : DArg N XR} {n : ℕ} {F : ℕ → ℝ} (hd : IsForcing R d n F) {T1 T2 U : ℕ → ℝ}
    (h : IRM.Produces R m d n T1 T2 U) : ∀ i < n, T1 i = p.T1 F i ∧ T2 i = p.T2 F i :=
  (IRM.boxes_val L (IRM.Reachable.coherent R hm) hp hd h).1

/-- Concrete case for C34: the default parameters with efficacy 1 and with efficacy 1.3, both runs succeed. -/
example : ∃ m₁ m₂ : IRM U0 XR, IRM.Reachable U0.reg m₁ ∧ IRM.Reachable U0.reg m₂ ∧
    m₁.Phys U0.reg IRPar.default ∧ m₂.Phys U0.reg { IRPar.default with e := 1.3 } ∧
    ∃ d T1 T2 U T1' T2' U', IRM.Produces U0.reg m₁ d 10 T1 T2 U ∧ IRM.Produces U0.reg m₂ d 10 T1' T2' U' := by
  obtain ⟨m, h1, h2, -, -, -, h3⟩ := IRM.any_run U0.lawful IRPar.default IRPar.default_ok (n := 10) (by norm_num)
    (fun i => (i : ℝ))
  obtain ⟨m', h1', h2', -, -, -, h3'⟩ := IRM.any_run U0.lawful { IRPar.default with e := 1.3 }
    (by constructor <;> norm_num [IRPar.default]) (n := 10) (by norm_num) (fun i => (i : ℝ))
  exact ⟨m, m', h1, h1', h2, h2', _, _, _, _, _, _, _, h3, h3'⟩

/-! ## C19, C20 -/

/-- While the forcing has been zero, so is every output. -/
theorem C19_impulse_response {m : IRM N XR} (hm : IRM.Reachable R m) {p : IRPar} (hp : m.Phys R p)
    {d : DArg N XR} {n : ℕ} {F : ℕ → ℝ} (hd : IsForcing R d n F) {T1 T2 U : ℕ → ℝ}
    (h : IRM.Produces R m d n T1 T2 U) {k : ℕ} (hk : ∀ i < k, F i = 0) :
    ∀ i < n, i ≤ k → T1 i = 0 ∧ T2 i = 0 ∧ U i = 0 := by
  intro i hi hik
  obtain ⟨α, β, hl⟩ := IRM.uptake_linear L (IRM.Reachable.coherent R hm) hp
  obtain ⟨hU0, hU⟩ := hl d n F T1 T2 U hd h
  obtain ⟨a, b⟩ := box L hm hp hd h i hi
  rw [a, b]
  have z := fun i hi => (⟨boxSol_zero (q := p.q1) (d := p.d1) (dt := p.dt) hk i hi,
    boxSol_zero (q := p.q2) (d := p.d2) (dt := p.dt) hk i hi⟩ : p.T1 F i = 0 ∧ p.T2 F i = 0)
  refine ⟨(z i hik).1, (z i hik).2, ?_⟩
  cases i with
  | zero => exact hU0 hi
  | succ i => rw [hU i hi, (z i (by omega)).1, (z i (by omega)).2, hk i (by omega)]; simp

/-- Delaying the forcing by `k` steps delays every output by `k` steps. -/
theorem C20_impulse_response {m : IRM N XR} (hm : IRM.Reachable R m) {p : IRPar} (hp : m.Phys R p)
    {d d' : DArg N XR} {n k : ℕ} {F G : ℕ → ℝ} (hd : IsForcing R d n F) (hd' : IsForcing R d' (k + n) G)
    (hG0 : ∀ i < k, G i = 0) (hG : ∀ i < n, G (k + i) = F i) {T1 T2 U T1' T2' U' : ℕ → ℝ}
    (h : IRM.Produces R m d n T1 T2 U) (h' : IRM.Produces R m d' (k + n) T1' T2' U') :
    (∀ i < k, T1' i = 0 ∧ T2' i = 0 ∧ U' i = 0) ∧
    ∀ i < n, T1' (k + i) = T1 i ∧ T2' (k + i) = T2 i ∧ U' (k + i) = U i := by
  refine ⟨fun i hi => C19_impulse_response L hm hp hd' h' hG0 i (by omega) (by omega), ?_⟩
  have hb : ∀ q d dt, ∀ i ≤ n, boxSol q d dt G (k + i) = boxSol q d dt F i := by
    intro q d dt i hi
    rw [boxSol_shift (F := fun i => G (k + i)) hG0 (fun _ => rfl) i]
    exact boxSol_congr (k := n) (fun j hj => hG j hj) i hi
  obtain ⟨α, β, hl⟩ := IRM.uptake_linear L (IRM.Reachable.coherent R hm) hp
  obtain ⟨hU0, hU⟩ := hl d n F T1 T2 U hd h
  obtain ⟨-, hU'⟩ := hl d' (k + n) G T1' T2' U' hd' h'
  intro i hi
  obtain ⟨a, b⟩ := box L hm hp hd h i hi
  obtain ⟨a', b'⟩ := box L hm hp hd' h' (k + i) (by omega)
  rw [a, b, a', b']
  refine ⟨hb _ _ _ i hi.le, hb _ _ _ i hi.le, ?_⟩
  cases i with
  | zero =>
    rw [hU0 hi]
    exact (C19_impulse_response L hm hp hd' h' hG0 k (by omega) le_rfl).2.2
  | succ i =>
    rw [← Nat.add_assoc, hU' (k + i) (by omega), hU i hi, hG i (by omega)]
    simp only [IRPar.T1, IRPar.T2]
    rw [hb _ _ _ i (by omega), hb _ _ _ i (by omega)]

/-! ## C23 -/

/-- Pointwise larger forcing gives pointwise larger box temperatures, whatever the (non-negative) time step. -/
theorem C23_impulse_response {m : IRM N XR} (hm : IRM.Reachable R m) {p : IRPar} (hp : m.Phys R p)
    (hq1 : 0 ≤ p.q1) (hq2 : 0 ≤ p.q2) (hd1 : 0 < p.d1) (hd2 : 0 < p.d2) (hdt : 0 ≤ p.dt)
    {d d' : DArg N XR} {n : ℕ} {F G : ℕ → ℝ} (hd : IsForcing R d n F) (hd' : IsForcing R d' n G)
    {T1 T2 U T1' T2' U' : ℕ → ℝ} (h : IRM.Produces R m d n T1 T2 U) (h' : IRM.Produces R m d' n T1' T2' U')
    (hFG : ∀ i < n, F i ≤ G i) : ∀ i < n, T1 i ≤ T1' i ∧ T2 i ≤ T2' i := by
  intro i hi
  obtain ⟨a, b⟩ := box L hm hp hd h i hi
  obtain ⟨a', b'⟩ := box L hm hp hd' h' i hi
  rw [a, b, a', b']
  exact ⟨boxSol_mono hq1 hd1 hdt hFG i hi.le, boxSol_mono hq2 hd2 hdt hFG i hi.le⟩

/-! ## C28 -/

/-- The box temperatures are the values, at the model's times, of the solution of the box equations. -/
theorem C28_impulse_response {m : IRM N XR} (hm : IRM.Reachable R m) {p : IRPar} (hp : m.Phys R p) (hdt : 0 < p.dt)
    {d : DArg N XR} {n : ℕ} {F : ℕ → ℝ} (hd : IsForcing R d n F) {T1 T2 U : ℕ → ℝ}
    (h : IRM.Produces R m d n T1 T2 U) {y1 y2 : ℝ → ℝ} (h1 : BoxODE p.q1 p.d1 p.dt (n - 1) F y1)
    (h2 : BoxODE p.q2 p.d2 p.dt (n - 1) F y2) : ∀ i < n, T1 i = y1 (i * p.dt) ∧ T2 i = y2 (i * p.dt) := by
  obtain ⟨hb, hne⟩ := IRM.boxes_val L (IRM.Reachable.coherent R hm) hp hd h
  intro i hi
  obtain ⟨a, b⟩ := hb i hi
  rw [a, b]
  by_cases hn : 1 < n
  · obtain ⟨n1, n2⟩ := hne hn
    exact ⟨(h1.eq_boxSol n1 hdt i (by omega)).symm, (h2.eq_boxSol n2 hdt i (by omega)).symm⟩
  · obtain rfl : i = 0 := by omega
    simp [h1.rest, h2.rest]

omit L in
/-- The box equations have a solution, for all parameters and drivers. -/
theorem C28_solution_exists (q : ℝ) {d dt : ℝ} (hd : d ≠ 0) (hdt : 0 < dt) (n : ℕ) (F : ℕ → ℝ) :
    ∃ y, BoxODE q d dt n F y := BoxODE.exists q hd hdt n F

/-- Concrete case: the default model driven by `[1, 2, 3] W/m²`, with solutions of the box equations. -/
example : ∃ m : IRM U0 XR, IRM.Reachable U0.reg m ∧ m.Phys U0.reg IRPar.default ∧
    (∃ T1 T2 U, IRM.Produces U0.reg m (exDrivers U0.reg) 3 T1 T2 U) ∧
    ∃ y1 y2, BoxODE IRPar.default.q1 IRPar.default.d1 IRPar.default.dt 2 (fun i => (i : ℝ) + 1) y1 ∧
      BoxODE IRPar.default.q2 IRPar.default.d2 IRPar.default.dt 2 (fun i => (i : ℝ) + 1) y2 := by
  obtain ⟨m, h1, h2, -, -, -, h3⟩ := IRM.default_run U0.lawful
  obtain ⟨y1, hy1⟩ := C28_solution_exists IRPar.default.q1 (d := IRPar.default.d1) (dt := IRPar.default.dt)
    (by norm_num [IRPar.default]) (by norm_num [IRPar.default]) 2 (fun i => (i : ℝ) + 1)
  obtain ⟨y2, hy2⟩ := C28_solution_exists IRPar.default.q2 (d := IRPar.default.d2) (dt := IRPar.default.dt)
    (by norm_num [IRPar.default]) (by norm_num [IRPar.default]) 2 (fun i => (i : ℝ) + 1)
  exact ⟨m, h1, h2, ⟨_, _, _, h3⟩, y1, y2, hy1, hy2⟩

/-! ## C29 -/

/-- Dividing every step into `μ` sub-steps with the driver repeated gives the same box temperatures at the original
times. -/
theorem C29_impulse_response {m m' : IRM N XR} (hm : IRM.Reachable R m) (hm' : IRM.Reachable R m') {p : IRPar} {μ : ℕ}
    (hμ : 0 < μ) (hp : m.Phys R p) (hp' : m'.Phys R { p with dt := p.dt / μ })
    {d d' : DArg N XR} {n : ℕ} {F : ℕ → ℝ} (hd : IsForcing R d n F)
    (hd' : IsForcing R d' (μ * n) fun j => F (j / μ)) {T1 T2 U T1' T2' U' : ℕ → ℝ}
    (h : IRM.Produces R m d n T1 T2 U) (h' : IRM.Produces R m' d' (μ * n) T1' T2' U') :
    ∀ i < n, T1' (μ * i) = T1 i ∧ T2' (μ * i) = T2 i := by
  intro i hi
  obtain ⟨a, b⟩ := box L hm hp hd h i hi
  obtain ⟨a', b'⟩ := box L hm' hp' hd' h' (μ * i) (Nat.mul_lt_mul_of_pos_left hi hμ)
  rw [a, b, a', b']
  exact ⟨boxSol_substep hμ F i, boxSol_substep hμ F i⟩

/-- Concrete case: yearly steps and monthly steps over 20 years. -/
example : ∃ m m' : IRM U0 XR, IRM.Reachable U0.reg m ∧ IRM.Reachable U0.reg m' ∧
    m.Phys U0.reg { IRPar.default with dt := 1 } ∧ m'.Phys U0.reg { IRPar.default with dt := 1 / (12 : ℕ) } ∧
    ∃ d d' T1 T2 U T1' T2' U', IsForcing U0.reg d 20 (fun i => (i : ℝ)) ∧
      IsForcing U0.reg d' (12 * 20) (fun j => ((j / 12 : ℕ) : ℝ)) ∧
      IRM.Produces U0.reg m d 20 T1 T2 U ∧ IRM.Produces U0.reg m' d' (12 * 20) T1' T2' U' := by
  obtain ⟨m, h1, h2, -, -, -, h3⟩ := IRM.any_run U0.lawful { IRPar.default with dt := 1 }
    (by constructor <;> norm_num [IRPar.default]) (n := 20) (by norm_num) (fun i => (i : ℝ))
  obtain ⟨m', h1', h2', -, -, -, h3'⟩ := IRM.any_run U0.lawful { IRPar.default with dt := 1 / (12 : ℕ) }
    (by constructor <;> norm_num [IRPar.default]) (n := 12 * 20) (by norm_num) (fun j => ((j / 12 : ℕ) : ℝ))
  exact ⟨m, m', h1, h1', h2, h2', _, _, _, _, _, _, _, _, forcing_exists _ _, forcing_exists _ _, h3, h3'⟩

/-! ## C30 -/

/-- Superposition. -/
theorem C30_impulse_response {m : IRM N XR} (hm : IRM.Reachable R m) {p : IRPar} (hp : m.Phys R p)
    {dF dG dH : DArg N XR} {n : ℕ} {F G : ℕ → ℝ} {x y : ℝ} (hF : IsForcing R dF n F)
    (hG : IsForcing R dG n G) (hH : IsForcing R dH n fun i => x * F i + y * G i)
    {T1 T2 U T1' T2' U' T1'' T2'' U'' : ℕ → ℝ} (h : IRM.Produces R m dF n T1 T2 U)
    (h' : IRM.Produces R m dG n T1' T2' U') (h'' : IRM.Produces R m dH n T1'' T2'' U'') :
    ∀ i < n, T1'' i = x * T1 i + y * T1' i ∧ T2'' i = x * T2 i + y * T2' i ∧ U'' i = x * U i + y * U' i := by
  obtain ⟨α, β, hl⟩ := IRM.uptake_linear L (IRM.Reachable.coherent R hm) hp
  obtain ⟨hU0, hU⟩ := hl dF n F T1 T2 U hF h
  obtain ⟨hU0', hU'⟩ := hl dG n G T1' T2' U' hG h'
  obtain ⟨hU0'', hU''⟩ := hl dH n _ T1'' T2'' U'' hH h''
  intro i hi
  obtain ⟨a, b⟩ := box L hm hp hF h i hi
  obtain ⟨a', b'⟩ := box L hm hp hG h' i hi
  obtain ⟨a'', b''⟩ := box L hm hp hH h'' i hi
  rw [a, b, a', b', a'', b'']
  refine ⟨boxSol_linear x y F G i, boxSol_linear x y F G i, ?_⟩
  cases i with
  | zero => rw [hU0 hi, hU0' hi, hU0'' hi]; ring
  | succ i =>
    rw [hU i hi, hU' i hi, hU'' i hi]
    simp only [IRPar.T1, IRPar.T2]
    rw [boxSol_linear, boxSol_linear]; ring

/-! ## C31 -/

/-- Forcing within `[lo, hi]` keeps each box within `[q lo, q hi]`, whatever the time step. -/
theorem C31_bounded {m : IRM N XR} (hm : IRM.Reachable R m) {p : IRPar} (hp : m.Phys R p)
    (hq1 : 0 ≤ p.q1) (hq2 : 0 ≤ p.q2) (hd1 : 0 < p.d1) (hd2 : 0 < p.d2) (hdt : 0 ≤ p.dt)
    {d : DArg N XR} {n : ℕ} {F : ℕ → ℝ} (hd : IsForcing R d n F) {T1 T2 U : ℕ → ℝ}
    (h : IRM.Produces R m d n T1 T2 U) {lo hi : ℝ} (hlo : lo ≤ 0) (hhi : 0 ≤ hi)
    (hF : ∀ i < n, lo ≤ F i ∧ F i ≤ hi) :
    ∀ i < n, (p.q1 * lo ≤ T1 i ∧ T1 i ≤ p.q1 * hi) ∧ (p.q2 * lo ≤ T2 i ∧ T2 i ≤ p.q2 * hi) := by
  intro i hi'
  obtain ⟨a, b⟩ := box L hm hp hd h i hi'
  rw [a, b]
  exact ⟨boxSol_bounds hq1 hd1 hdt hlo hhi hF i hi'.le, boxSol_bounds hq2 hd2 hdt hlo hhi hF i hi'.le⟩

/-- Constant forcing: the exact response at every step. -/
theorem C31_constant {m : IRM N XR} (hm : IRM.Reachable R m) {p : IRPar} (hp : m.Phys R p) {c : ℝ}
    {d : DArg N XR} {n : ℕ} (hd : IsForcing R d n fun _ => c) {T1 T2 U : ℕ → ℝ}
    (h : IRM.Produces R m d n T1 T2 U) : ∀ i < n, T1 i = p.q1 * c * (1 - Real.exp (-(i * p.dt / p.d1))) ∧
      T2 i = p.q2 * c * (1 - Real.exp (-(i * p.dt / p.d2))) := by
  intro i hi
  obtain ⟨a, b⟩ := box L hm hp hd h i hi
  rw [a, b]
  exact ⟨boxSol_const c i, boxSol_const c i⟩

/-- Constant forcing: surface temperature gets, and stays, as close as one likes to `(q1 + q2) c`. -/
theorem C31_equilibrium {m : IRM N XR} (hm : IRM.Reachable R m) {p : IRPar} (hp : m.Phys R p)
    (hd1 : 0 < p.d1) (hd2 : 0 < p.d2) (hdt : 0 < p.dt) (c : ℝ) {ε : ℝ} (hε : 0 < ε) :
    ∃ i₀ : ℕ, ∀ d n T1 T2 U, IsForcing R d n (fun _ => c) → IRM.Produces R m d n T1 T2 U →
      ∀ i, i₀ ≤ i → i < n → |(T1 i + T2 i) - (p.q1 + p.q2) * c| < ε := by
  have hexp : ∀ d, 0 < d → Filter.Tendsto (fun i : ℕ => Real.exp (-(i * p.dt / d))) Filter.atTop (nhds 0) := by
    intro d hd
    refine Real.tendsto_exp_atBot.comp ?_
    refine Filter.tendsto_neg_atTop_atBot.comp ?_
    have : (fun i : ℕ => (i : ℝ) * p.dt / d) = fun i : ℕ => (i : ℝ) * (p.dt / d) := by
      funext i; ring
    rw [this]
    exact tendsto_natCast_atTop_atTop.atTop_mul_const (by positivity)
  have hlim : Filter.Tendsto (fun i : ℕ => |p.q1 * c * (1 - Real.exp (-(i * p.dt / p.d1))) +
      p.q2 * c * (1 - Real.exp (-(i * p.dt / p.d2))) - (p.q1 + p.q2) * c|) Filter.atTop (nhds 0) := by
    have h1 := (((hexp _ hd1).const_sub 1).const_mul (p.q1 * c))
    have h2 := (((hexp _ hd2).const_sub 1).const_mul (p.q2 * c))
    have h3 := ((h1.add h2).sub_const ((p.q1 + p.q2) * c)).abs
    have : |p.q1 * c * (1 - 0) + p.q2 * c * (1 - 0) - (p.q1 + p.q2) * c| = 0 := by
      rw [abs_eq_zero]; ring
    rwa [this] at h3
  obtain ⟨i₀, hi₀⟩ := Filter.eventually_atTop.mp (hlim.eventually_lt_const hε)
  refine ⟨i₀, fun d n T1 T2 U hd h i hi hin => ?_⟩
  obtain ⟨a, b⟩ := C31_constant L hm hp hd h i hin
  rw [a, b]
  exact hi₀ i hi

/-! ## C33 -/

/-- Heat uptake over a step is the energy imbalance of the equivalent two-layer model at its start, for objects
whose `q1` is given in the model's own unit. -/
theorem C33_impulse_response {m : IRM N XR} (hm : IRM.Reachable R m) {p : IRPar} (hp : m.Phys R p) (hok : p.Boxes)
    (hunit : m.q1.unit = R.cwm2)
    {d : DArg N XR} {n : ℕ} {F : ℕ → ℝ} (hd : IsForcing R d n F) {T1 T2 U : ℕ → ℝ}
    (h : IRM.Produces R m d n T1 T2 U) :
    ∀ i, i + 1 < n → U (i + 1) = F i - p.l * (T1 i + T2 i) -
      (p.e - 1) * p.h * ((T1 i + T2 i) - (p.phi1 * T1 i + p.phi2 * T2 i)) := by
  have hκ : IsNum R ⟨.fin 1, m.q1.unit⟩ R.cwm2 1 := by rw [hunit]; exact isNum_self _ _
  intro i hi
  have := ((IRM.produces_iff' L (IRM.Reachable.coherent R hm) hp hok hκ (by omega) hd T1 T2 U).mp h).2.uptake.2 i hi
  rw [this]; ring

/-- Concrete case for C19–C33: default parameters except efficacy 1.3, in the model's own units. -/
example : ∃ m : IRM U0 XR, IRM.Reachable U0.reg m ∧ m.Phys U0.reg { IRPar.default with e := 1.3 } ∧
    IRPar.Ok { IRPar.default with e := 1.3 } ∧ m.q1.unit = U0.reg.cwm2 ∧
    ∃ d T1 T2 U, IsForcing U0.reg d 10 (fun i => (i : ℝ)) ∧ IRM.Produces U0.reg m d 10 T1 T2 U := by
  have hok : IRPar.Ok { IRPar.default with e := 1.3 } := by constructor <;> norm_num [IRPar.default]
  obtain ⟨m', h1', h2', h3, -, -, h4⟩ := IRM.any_run U0.lawful { IRPar.default with e := 1.3 }
    hok (n := 10) (by norm_num) (fun i => (i : ℝ))
  exact ⟨m', h1', h2', hok, h3, _, _, _, _, forcing_exists _ _, h4⟩

end TwoLayer
