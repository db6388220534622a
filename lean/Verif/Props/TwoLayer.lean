import Verif.Proofs.TLMath
import Verif.Proofs.Init
import Verif.Proofs.TLFinite

/-!
# C15–C27: what a `TwoLayerModel` run computes, in exact arithmetic

In every theorem `m` is an object a program can hold (constructed, then any history of calls), `p` its public
parameters as real numbers, `d` a driver argument holding the `n` values `F 0, …, F (n-1)` (W/m²), and
`TLM.Produces R m d n T TD U` says that `set_drivers(d)`, `reset()`, `run()` succeed on `m` and report upper
temperature `T`, lower temperature `TD` and heat uptake `U`.
-/

set_option linter.unusedSimpArgs false
set_option linter.unusedSectionVars false

namespace TwoLayer
variable {N : Type} [Fintype N] [DecidableEq N] {R : Registry N XR} (L : R.Lawful)
include L

private theorem val {m : TLM N XR} (hm : TLM.Reachable R m) {p : TLPar} (hp : m.Phys R p) (hok : p.Ok)
    {d : DArg N XR} {n : ℕ} {F : ℕ → ℝ} (hd : IsForcing R d n F) {T TD U : ℕ → ℝ}
    (h : TLM.Produces R m d n T TD U) : ∀ i < n, T i = p.T F i ∧ TD i = p.TD F i ∧ U i = p.U F i :=
  TLM.produces_val L (TLM.Reachable.coherent R L.toDimensional hm) hp hok hd h

private theorem any {m : TLM N XR} (hm : TLM.Reachable R m) {p : TLPar} (hp : m.Phys R p)
    {d : DArg N XR} {n : ℕ} {F : ℕ → ℝ} (hd : IsForcing R d n F) {T TD U : ℕ → ℝ}
    (h : TLM.Produces R m d n T TD U) : ∀ i < n, T i = p.T F i ∧ TD i = p.TD F i ∧ U i = p.U F i :=
  TLM.produces_any L (TLM.Reachable.coherent R L.toDimensional hm) hp hd h

private theorem ok {m : TLM N XR} (hm : TLM.Reachable R m) {p : TLPar} (hp : m.Phys R p)
    {d : DArg N XR} {n : ℕ} (hn : 1 < n) {F : ℕ → ℝ} (hd : IsForcing R d n F) {T TD U : ℕ → ℝ}
    (h : TLM.Produces R m d n T TD U) : p.Ok :=
  TLM.produces_ok L (TLM.Reachable.coherent R L.toDimensional hm) hp hn hd h

/-! ## C15 -/

/-- A run reports `T`, `TD`, `U` exactly when these solve the difference equations. -/
theorem C15_two_layer {m : TLM N XR} (hm : TLM.Reachable R m) {p : TLPar} (hp : m.Phys R p) (hok : p.Ok)
    {d : DArg N XR} {n : ℕ} (hn : n ≠ 0) {F : ℕ → ℝ} (hd : IsForcing R d n F) (T TD U : ℕ → ℝ) :
    TLM.Produces R m d n T TD U ↔ TLEq p n F T TD U :=
  TLM.produces_iff L (TLM.Reachable.coherent R L.toDimensional hm) hp hok hn hd T TD U

/-- The run always succeeds, and reports a solution; the difference equations have no other solution. -/
theorem C15_two_layer_exists_unique {m : TLM N XR} (hm : TLM.Reachable R m) {p : TLPar} (hp : m.Phys R p)
    (hok : p.Ok) {d : DArg N XR} {n : ℕ} (hn : n ≠ 0) {F : ℕ → ℝ} (hd : IsForcing R d n F) :
    ∃ T TD U, TLM.Produces R m d n T TD U ∧ TLEq p n F T TD U ∧
      ∀ T' TD' U', TLEq p n F T' TD' U' → ∀ i < n, T' i = T i ∧ TD' i = TD i ∧ U' i = U i :=
  ⟨p.T F, p.TD F, p.U F,
    TLM.produces_sol L (TLM.Reachable.coherent R L.toDimensional hm) hp hok hn hd, p.sol_eq hok n F,
    fun _ _ _ h i hi => h.unique hok i hi⟩

/-- A run of more than one step reports numbers exactly if depths and time step are not zero; the theorems below that
assume `TLM.Produces` are about all of these. -/
theorem C15_two_layer_numbers {m : TLM N XR} (hm : TLM.Reachable R m) {p : TLPar} (hp : m.Phys R p)
    {d : DArg N XR} {n : ℕ} (hn : 1 < n) {F : ℕ → ℝ} (hd : IsForcing R d n F) :
    (∃ T TD U, TLM.Produces R m d n T TD U) ↔ p.C ≠ 0 ∧ p.D ≠ 0 ∧ p.dt ≠ 0 := by
  constructor
  · rintro ⟨T, TD, U, h⟩
    have := ok L hm hp hn hd h
    exact ⟨this.C, this.D, this.dt⟩
  · rintro ⟨h1, h2, h3⟩
    exact ⟨_, _, _, TLM.produces_sol L (TLM.Reachable.coherent R L.toDimensional hm) hp ⟨h1, h2, h3⟩ (by omega) hd⟩

/-- Concrete case: `TwoLayerModel()` driven by `[1, 2, 3] W/m²`. -/
example : ∃ m : TLM U0 XR, TLM.Reachable U0.reg m ∧ m.Phys U0.reg TLPar.default ∧ TLPar.default.Ok ∧
    IsForcing U0.reg (exDrivers U0.reg) 3 (fun i => (i : ℝ) + 1) ∧
    ∃ T TD U, TLM.Produces U0.reg m (exDrivers U0.reg) 3 T TD U := by
  obtain ⟨m, h1, h2, h3⟩ := TLM.default_run U0.lawful
  exact ⟨m, h1, h2, TLPar.default_ok, exDrivers_forcing, _, _, _, h3⟩

/-! ## C16 -/

/-- Heat uptake over a step is the radiative imbalance at its start. -/
theorem C16_two_layer {m : TLM N XR} (hm : TLM.Reachable R m) {p : TLPar} (hp : m.Phys R p)
    {d : DArg N XR} {n : ℕ} {F : ℕ → ℝ} (hd : IsForcing R d n F) {T TD U : ℕ → ℝ}
    (h : TLM.Produces R m d n T TD U) :
    ∀ i, i + 1 < n → U (i + 1) = F i - (p.l - p.a * T i) * T i - (p.e - 1) * p.h * (T i - TD i) := by
  intro i hi
  obtain ⟨a, b, -⟩ := any L hm hp hd h i (by omega)
  rw [(any L hm hp hd h (i + 1) hi).2.2, a, b]
  exact TLPar.uptake (ok L hm hp (by omega) hd h) F i

/-! ## C17 -/

/-- The heat taken up so far is the heat stored in the two layers. -/
theorem C17_two_layer {m : TLM N XR} (hm : TLM.Reachable R m) {p : TLPar} (hp : m.Phys R p)
    {d : DArg N XR} {n : ℕ} {F : ℕ → ℝ} (hd : IsForcing R d n F) {T TD U : ℕ → ℝ}
    (h : TLM.Produces R m d n T TD U) :
    ∀ i < n, ∑ j ∈ Finset.range (i + 1), U j * p.dt = p.C * T i + p.D * TD i := by
  intro i hi
  by_cases hn : 1 < n
  swap
  · obtain rfl : i = 0 := by omega
    obtain ⟨a, b, c⟩ := any L hm hp hd h 0 hi
    simp [a, b, c]
  have hok := ok L hm hp hn hd h
  obtain ⟨a, b, -⟩ := any L hm hp hd h i hi
  rw [a, b, ← TLPar.energy hok F i, Finset.mul_sum]
  refine Finset.sum_congr rfl fun j hj => ?_
  have : j < n := by have := Finset.mem_range.mp hj; omega
  rw [(any L hm hp hd h j this).2.2, mul_comm]

/-! ## C18 -/

/-- Superposition: with `a = 0` the response to `x F + y G` is the same combination of the responses. -/
theorem C18_two_layer {m : TLM N XR} (hm : TLM.Reachable R m) {p : TLPar} (hp : m.Phys R p)
    (ha : p.a = 0) {dF dG dH : DArg N XR} {n : ℕ} {F G : ℕ → ℝ} {x y : ℝ} (hF : IsForcing R dF n F)
    (hG : IsForcing R dG n G) (hH : IsForcing R dH n fun i => x * F i + y * G i)
    {T TD U T' TD' U' T'' TD'' U'' : ℕ → ℝ} (h : TLM.Produces R m dF n T TD U)
    (h' : TLM.Produces R m dG n T' TD' U') (h'' : TLM.Produces R m dH n T'' TD'' U'') :
    ∀ i < n, T'' i = x * T i + y * T' i ∧ TD'' i = x * TD i + y * TD' i ∧ U'' i = x * U i + y * U' i := by
  intro i hi
  obtain ⟨a, b, c⟩ := any L hm hp hF h i hi
  obtain ⟨a', b', c'⟩ := any L hm hp hG h' i hi
  obtain ⟨a'', b'', c''⟩ := any L hm hp hH h'' i hi
  rw [a, b, c, a', b', c', a'', b'', c'']
  exact TLPar.linear ha x y F G i

/-! ## C19 -/

/-- While the forcing has been zero, so is every output (any `a`). -/
theorem C19_two_layer {m : TLM N XR} (hm : TLM.Reachable R m) {p : TLPar} (hp : m.Phys R p)
    {d : DArg N XR} {n : ℕ} {F : ℕ → ℝ} (hd : IsForcing R d n F) {T TD U : ℕ → ℝ}
    (h : TLM.Produces R m d n T TD U) {k : ℕ} (hk : ∀ i < k, F i = 0) :
    ∀ i < n, i ≤ k → T i = 0 ∧ TD i = 0 ∧ U i = 0 := by
  intro i hi hik
  obtain ⟨a, b, c⟩ := any L hm hp hd h i hi
  rw [a, b, c]
  exact TLPar.zero_upto hk i hik

/-! ## C20 -/

/-- Delaying the forcing by `k` steps delays every output by `k` steps (any `a`). -/
theorem C20_two_layer {m : TLM N XR} (hm : TLM.Reachable R m) {p : TLPar} (hp : m.Phys R p)
    {d d' : DArg N XR} {n k : ℕ} {F G : ℕ → ℝ} (hd : IsForcing R d n F) (hd' : IsForcing R d' (k + n) G)
    (hG0 : ∀ i < k, G i = 0) (hG : ∀ i < n, G (k + i) = F i) {T TD U T' TD' U' : ℕ → ℝ}
    (h : TLM.Produces R m d n T TD U) (h' : TLM.Produces R m d' (k + n) T' TD' U') :
    (∀ i < k, T' i = 0 ∧ TD' i = 0 ∧ U' i = 0) ∧
    ∀ i < n, T' (k + i) = T i ∧ TD' (k + i) = TD i ∧ U' (k + i) = U i := by
  refine ⟨fun i hi => C19_two_layer L hm hp hd' h' hG0 i (by omega) (by omega), fun i hi => ?_⟩
  obtain ⟨a, b, c⟩ := any L hm hp hd h i hi
  obtain ⟨a', b', c'⟩ := any L hm hp hd' h' (k + i) (by omega)
  have hs := TLPar.shift (p := p) (F := fun i => G (k + i)) hG0 (fun _ => rfl) i
  have hc := TLPar.congr_upto (p := p) (F := fun i => G (k + i)) (G := F) (k := i) (fun j hj => hG j (by omega)) i le_rfl
  rw [a, b, c, a', b', c', hs.1, hs.2.1, hs.2.2]
  exact hc

/-! ## C21 -/

/-- Constant forcing `c`, `a = 0`, a step shorter than twice the fast timescale: both temperatures converge
geometrically to `c / lambda0` and heat uptake to 0, at a rate `r < 1` and with a constant `K` that do not
depend on the length of the run. -/
theorem C21_two_layer {m : TLM N XR} (hm : TLM.Reachable R m) {p : TLPar} (hp : m.Phys R p) (hpos : p.Pos)
    (ha : p.a = 0) (hdt : p.dt < 2 * p.tau1) (c : ℝ) :
    ∃ r K : ℝ, 0 ≤ r ∧ r < 1 ∧ ∀ d n T TD U, IsForcing R d n (fun _ => c) → TLM.Produces R m d n T TD U →
      ∀ i < n, |T i - c / p.l| ≤ |c| / p.l * r ^ i ∧ |TD i - c / p.l| ≤ K * r ^ i ∧
        ∀ j, i = j + 1 → |U i| ≤ K * r ^ j := by
  obtain ⟨K, hK⟩ := TLPar.converge hpos ha c
  refine ⟨p.rate, K, (abs_nonneg _).trans (le_max_left _ _), TLPar.rate_lt hpos hdt, ?_⟩
  intro d n T TD U hd h i hi
  obtain ⟨e1, e2, e3⟩ := val L hm hp hpos.ok hd h i hi
  rw [e1, e2]
  refine ⟨(hK i).1, (hK i).2.1, ?_⟩
  rintro j rfl
  rw [e3]
  exact (hK j).2.2

omit L in
/-- A time step that resolves both layers satisfies the hypothesis of `C21_two_layer`. -/
theorem C21_resolved {p : TLPar} (hpos : p.Pos) (hr : p.Resolved) : p.dt < 2 * p.tau1 :=
  hpos.resolved_lt hr

/-- If a run under constant forcing `c` is ever stationary, then both layers are at `c / lambda0`. -/
theorem C21_steady {m : TLM N XR} (hm : TLM.Reachable R m) {p : TLPar} (hp : m.Phys R p)
    (ha : p.a = 0) (hh : p.h ≠ 0) (hl : p.l ≠ 0) {c : ℝ} {d : DArg N XR} {n : ℕ} {T TD U : ℕ → ℝ}
    (hd : IsForcing R d n (fun _ => c)) (h : TLM.Produces R m d n T TD U) {i : ℕ} (hi : i + 1 < n)
    (h1 : T (i + 1) = T i) (h2 : TD (i + 1) = TD i) : T i = c / p.l ∧ TD i = c / p.l ∧ U (i + 1) = 0 := by
  have hok := TLM.produces_ok L (TLM.Reachable.coherent R L.toDimensional hm) hp (by omega) hd h
  obtain ⟨-, hs⟩ := (C15_two_layer L hm hp hok (by omega) hd T TD U).mp h
  obtain ⟨a, b, e⟩ := hs i hi
  rw [h1, h2, sub_self, sub_self, zero_div, mul_zero, mul_zero, add_zero] at e
  rw [h1, sub_self, zero_div, mul_zero, ha] at a
  rw [h2, sub_self, zero_div, mul_zero] at b
  have hTD : T i - TD i = 0 := by
    rcases mul_eq_zero.mp b.symm with h | h
    · exact absurd h hh
    · exact h
  rw [hTD] at a
  have hT : T i = c / p.l := by rw [eq_div_iff hl]; linarith
  refine ⟨hT, ?_, e⟩
  rw [← hT]; linarith

omit L in
theorem TLPar.default_pos : TLPar.default.Pos := by constructor <;> norm_num [TLPar.default]
omit L in
theorem TLPar.default_resolved : TLPar.default.Resolved := by constructor <;> norm_num [TLPar.default]

/-- Concrete case: `TwoLayerModel()` with its one-year step under 2 W/m² for 500 years. -/
example : ∃ (m : TLM U0 XR) (d : DArg U0 XR) (T TD U : ℕ → ℝ), TLM.Reachable U0.reg m ∧
    m.Phys U0.reg TLPar.default ∧ TLPar.default.Pos ∧ TLPar.default.a = 0 ∧
    TLPar.default.dt < 2 * TLPar.default.tau1 ∧ IsForcing U0.reg d 500 (fun _ => 2) ∧
    TLM.Produces U0.reg m d 500 T TD U := by
  obtain ⟨m, h1, h2, h3⟩ := TLM.any_run U0.lawful TLPar.default TLPar.default_ok (n := 500) (by norm_num) (fun _ => 2)
  exact ⟨m, _, _, _, _, h1, h2, TLPar.default_pos, rfl, C21_resolved TLPar.default_pos TLPar.default_resolved,
    forcing_exists _ _, h3⟩

/-! ## C22 -/

/-- Forcing within `[lo, hi]` (`lo ≤ 0 ≤ hi`) keeps both temperatures within `[lo / lambda0, hi / lambda0]`. -/
theorem C22_two_layer {m : TLM N XR} (hm : TLM.Reachable R m) {p : TLPar} (hp : m.Phys R p) (hr : p.Resolved)
    (ha : p.a = 0) {d : DArg N XR} {n : ℕ} {F : ℕ → ℝ} (hd : IsForcing R d n F) {T TD U : ℕ → ℝ}
    (h : TLM.Produces R m d n T TD U) {lo hi : ℝ} (hlo : lo ≤ 0) (hhi : 0 ≤ hi)
    (hF : ∀ i < n, lo ≤ F i ∧ F i ≤ hi) :
    ∀ i < n, (lo / p.l ≤ T i ∧ T i ≤ hi / p.l) ∧ (lo / p.l ≤ TD i ∧ TD i ≤ hi / p.l) := by
  intro i hi'
  obtain ⟨a, b, -⟩ := val L hm hp hr.ok hd h i hi'
  rw [a, b]
  exact TLPar.bounds hr ha hlo hhi hF i hi'.le

/-- The case `|F| ≤ M`. -/
theorem C22_two_layer_abs {m : TLM N XR} (hm : TLM.Reachable R m) {p : TLPar} (hp : m.Phys R p) (hr : p.Resolved)
    (ha : p.a = 0) {d : DArg N XR} {n : ℕ} {F : ℕ → ℝ} (hd : IsForcing R d n F) {T TD U : ℕ → ℝ}
    (h : TLM.Produces R m d n T TD U) {M : ℝ} (hF : ∀ i < n, |F i| ≤ M) :
    ∀ i < n, |T i| ≤ M / p.l ∧ |TD i| ≤ M / p.l := by
  intro i hi
  have hM : 0 ≤ M := (abs_nonneg _).trans (hF i hi)
  have := C22_two_layer L hm hp hr ha hd h (lo := -M) (hi := M) (by linarith) hM (fun j hj => abs_le.mp (hF j hj)) i hi
  rw [neg_div] at this
  exact ⟨abs_le.mpr this.1, abs_le.mpr this.2⟩

/-! ## C23 -/

/-- Pointwise larger forcing gives pointwise larger temperatures. -/
theorem C23_two_layer {m : TLM N XR} (hm : TLM.Reachable R m) {p : TLPar} (hp : m.Phys R p) (hr : p.Resolved)
    (ha : p.a = 0) {d d' : DArg N XR} {n : ℕ} {F G : ℕ → ℝ} (hd : IsForcing R d n F) (hd' : IsForcing R d' n G)
    {T TD U T' TD' U' : ℕ → ℝ} (h : TLM.Produces R m d n T TD U) (h' : TLM.Produces R m d' n T' TD' U')
    (hFG : ∀ i < n, F i ≤ G i) : ∀ i < n, T i ≤ T' i ∧ TD i ≤ TD' i := by
  intro i hi
  obtain ⟨a, b, -⟩ := val L hm hp hr.ok hd h i hi
  obtain ⟨a', b', -⟩ := val L hm hp hr.ok hd' h' i hi
  rw [a, b, a', b']
  exact TLPar.mono hr ha hFG i hi.le

/-- Concrete case for C22 and C23: `TwoLayerModel()`, forcings `1, 2, 3, …` and `2, 3, 4, …`, 100 years. -/
example : TLPar.default.Resolved ∧ TLPar.default.a = 0 ∧ (∀ i : ℕ, i < 100 → (0 : ℝ) ≤ (i : ℝ) + 1 ∧ (i : ℝ) + 1 ≤ 100) ∧
    ∃ m : TLM U0 XR, TLM.Reachable U0.reg m ∧ m.Phys U0.reg TLPar.default ∧
    ∃ d d' T TD U T' TD' U', IsForcing U0.reg d 100 (fun i => (i : ℝ) + 1) ∧
      IsForcing U0.reg d' 100 (fun i => (i : ℝ) + 2) ∧ TLM.Produces U0.reg m d 100 T TD U ∧
      TLM.Produces U0.reg m d' 100 T' TD' U' := by
  refine ⟨TLPar.default_resolved, rfl, fun i hi => ⟨by positivity, ?_⟩, ?_⟩
  · exact_mod_cast hi
  obtain ⟨m, h1, h2⟩ := TLM.exists_phys U0.lawful TLPar.default
  have hc := TLM.Reachable.coherent U0.reg U0.lawful.toDimensional h1
  exact ⟨m, h1, h2, _, _, _, _, _, _, _, _, forcing_exists _ _, forcing_exists _ _,
    TLM.produces_sol U0.lawful hc h2 TLPar.default_ok (by norm_num) (forcing_exists _ _),
    TLM.produces_sol U0.lawful hc h2 TLPar.default_ok (by norm_num) (forcing_exists _ _)⟩

/-! ## C24 -/

/-- With `eta = 0` the lower layer stays at zero, and heat uptake is the heat gained by the upper layer. -/
theorem C24_two_layer {m : TLM N XR} (hm : TLM.Reachable R m) {p : TLPar} (hp : m.Phys R p)
    (hh : p.h = 0) {d : DArg N XR} {n : ℕ} {F : ℕ → ℝ} (hd : IsForcing R d n F) {T TD U : ℕ → ℝ}
    (h : TLM.Produces R m d n T TD U) :
    (∀ i < n, TD i = 0) ∧ ∀ i, i + 1 < n → U (i + 1) = p.C * ((T (i + 1) - T i) / p.dt) ∧
      U (i + 1) = F i - (p.l - p.a * T i) * T i := by
  have hTD : ∀ i < n, TD i = 0 := fun i hi => by
    rw [(any L hm hp hd h i hi).2.1]; exact TLPar.one_layer hh F i
  refine ⟨hTD, fun i hi => ⟨?_, ?_⟩⟩
  · obtain ⟨-, hs⟩ := (C15_two_layer L hm hp (ok L hm hp (by omega) hd h) (by omega) hd T TD U).mp h
    rw [(hs i hi).2.2, hTD i (by omega), hTD (i + 1) hi]; simp
  · rw [C16_two_layer L hm hp hd h i hi, hh]; ring

/-- With `eta = 0`, `dl` and `efficacy` have no effect on upper temperature and heat uptake. -/
theorem C24_two_layer_independent {m m' : TLM N XR} (hm : TLM.Reachable R m) (hm' : TLM.Reachable R m') {p p' : TLPar}
    (hp : m.Phys R p) (hp' : m'.Phys R p') (hh : p.h = 0) (hh' : p'.h = 0)
    (hC : p'.C = p.C) (hl : p'.l = p.l) (ha : p'.a = p.a) (hdt : p'.dt = p.dt)
    {d : DArg N XR} {n : ℕ} {F : ℕ → ℝ} (hd : IsForcing R d n F) {T TD U T' TD' U' : ℕ → ℝ}
    (h : TLM.Produces R m d n T TD U) (h' : TLM.Produces R m' d n T' TD' U') :
    ∀ i < n, T' i = T i ∧ U' i = U i := by
  intro i hi
  obtain ⟨a, -, c⟩ := any L hm hp hd h i hi
  obtain ⟨a', -, c'⟩ := any L hm' hp' hd h' i hi
  rw [a, c, a', c']
  exact TLPar.one_layer_congr hh hh' hC hl ha hdt F i

/-- Concrete case: `eta = 0` and two different lower layers. -/
example : ∃ m m' : TLM U0 XR, TLM.Reachable U0.reg m ∧ TLM.Reachable U0.reg m' ∧
    m.Phys U0.reg { TLPar.default with h := 0 } ∧ m'.Phys U0.reg { TLPar.default with h := 0, D := 77, e := 2 } ∧
    ∃ d T TD U T' TD' U', IsForcing U0.reg d 10 (fun i => (i : ℝ)) ∧ TLM.Produces U0.reg m d 10 T TD U ∧
      TLM.Produces U0.reg m' d 10 T' TD' U' := by
  obtain ⟨m, h1, h2, h3⟩ := TLM.any_run U0.lawful { TLPar.default with h := 0 }
    (by constructor <;> norm_num [TLPar.default]) (n := 10) (by norm_num) (fun i => (i : ℝ))
  obtain ⟨m', h1', h2', h3'⟩ := TLM.any_run U0.lawful { TLPar.default with h := 0, D := 77, e := 2 }
    (by constructor <;> norm_num [TLPar.default]) (n := 10) (by norm_num) (fun i => (i : ℝ))
  exact ⟨m, m', h1, h1', h2, h2', _, _, _, _, _, _, _, forcing_exists _ _, h3, h3'⟩

/-! ## C25 -/

/-- Replacing `(efficacy, eta, dl)` by `(k efficacy, eta / k, dl / k)` leaves both temperatures unchanged. -/
theorem C25_two_layer {m m' : TLM N XR} (hm : TLM.Reachable R m) (hm' : TLM.Reachable R m') {p : TLPar} {k : ℝ}
    (hk : k ≠ 0) (hp : m.Phys R p) (hp' : m'.Phys R { p with e := k * p.e, h := p.h / k, D := p.D / k })
    {d : DArg N XR} {n : ℕ} {F : ℕ → ℝ} (hd : IsForcing R d n F) {T TD U T' TD' U' : ℕ → ℝ}
    (h : TLM.Produces R m d n T TD U) (h' : TLM.Produces R m' d n T' TD' U') :
    ∀ i < n, T' i = T i ∧ TD' i = TD i := by
  intro i hi
  by_cases hn : 1 < n
  swap
  · obtain rfl : i = 0 := by omega
    obtain ⟨a, b, -⟩ := any L hm hp hd h 0 hi
    obtain ⟨a', b', -⟩ := any L hm' hp' hd h' 0 hi
    simp [a, b, a', b']
  have hok := ok L hm hp hn hd h
  obtain ⟨a, b, -⟩ := any L hm hp hd h i hi
  obtain ⟨a', b', -⟩ := any L hm' hp' hd h' i hi
  rw [a, b, a', b']
  exact TLPar.rescale (p' := { p with e := k * p.e, h := p.h / k, D := p.D / k }) hk hok.D rfl rfl rfl rfl rfl rfl rfl F i

/-- Concrete case: the default parameters and `k = 2`. -/
example : ∃ m m' : TLM U0 XR, TLM.Reachable U0.reg m ∧ TLM.Reachable U0.reg m' ∧ m.Phys U0.reg TLPar.default ∧
    m'.Phys U0.reg { TLPar.default with e := 2 * TLPar.default.e, h := TLPar.default.h / 2, D := TLPar.default.D / 2 } ∧
    ∃ d T TD U T' TD' U', IsForcing U0.reg d 10 (fun i => (i : ℝ)) ∧ TLM.Produces U0.reg m d 10 T TD U ∧
      TLM.Produces U0.reg m' d 10 T' TD' U' := by
  obtain ⟨m, h1, h2, h3⟩ := TLM.any_run U0.lawful TLPar.default
    (by constructor <;> norm_num [TLPar.default]) (n := 10) (by norm_num) (fun i => (i : ℝ))
  obtain ⟨m', h1', h2', h3'⟩ := TLM.any_run U0.lawful
    { TLPar.default with e := 2 * TLPar.default.e, h := TLPar.default.h / 2, D := TLPar.default.D / 2 }
    (by constructor <;> norm_num [TLPar.default]) (n := 10) (by norm_num) (fun i => (i : ℝ))
  exact ⟨m, m', h1, h1', h2, h2', _, _, _, _, _, _, _, forcing_exists _ _, h3, h3'⟩

/-! ## C26 -/

/-- A larger state dependence (`0 ≤ a ≤ a'`) gives larger temperatures under non-negative forcing; `a = 0` is the
linear model. -/
theorem C26_amplifies {m m' : TLM N XR} (hm : TLM.Reachable R m) (hm' : TLM.Reachable R m') {p : TLPar} {a' : ℝ}
    (hp : m.Phys R p) (hp' : m'.Phys R { p with a := a' }) (hr : p.Resolved) (ha : 0 ≤ p.a) (haa : p.a ≤ a')
    {d : DArg N XR} {n : ℕ} {F : ℕ → ℝ} (hd : IsForcing R d n F) (hF : ∀ i < n, 0 ≤ F i) {T TD U T' TD' U' : ℕ → ℝ}
    (h : TLM.Produces R m d n T TD U) (h' : TLM.Produces R m' d n T' TD' U') :
    ∀ i < n, 0 ≤ T i ∧ 0 ≤ TD i ∧ T i ≤ T' i ∧ TD i ≤ TD' i := by
  intro i hi
  obtain ⟨e1, e2, -⟩ := val L hm hp hr.ok hd h i hi
  obtain ⟨e1', e2', -⟩ := val L hm' hp' ⟨hr.ok.C, hr.ok.D, hr.ok.dt⟩ hd h' i hi
  rw [e1, e2, e1', e2']
  obtain ⟨⟨x1, x2⟩, x3, x4⟩ := TLPar.mono_a hr (p' := { p with a := a' }) rfl ha haa hF (G := F) (fun _ _ => le_rfl) i hi.le
  exact ⟨x1, x2, x3, x4⟩

/-- Above the tipping point `lambda0² / (4a)` the upper temperature grows at least linearly, so exceeds every bound. -/
theorem C26_runaway {m : TLM N XR} (hm : TLM.Reachable R m) {p : TLPar} (hp : m.Phys R p) (hr : p.Resolved)
    (ha : 0 < p.a) {c : ℝ} (hc : p.l ^ 2 / (4 * p.a) < c) (B : ℝ) :
    ∃ i₀ : ℕ, ∀ d n T TD U, IsForcing R d n (fun _ => c) → TLM.Produces R m d n T TD U →
      ∀ i, i₀ ≤ i → i < n → B < T i := by
  have hs : 0 < p.dt * (c - p.l ^ 2 / (4 * p.a)) / (p.C + p.e * p.D) := by
    have := hr.dt; have := hr.C; have := hr.D; have := hr.e
    have : 0 < c - p.l ^ 2 / (4 * p.a) := by linarith
    positivity
  obtain ⟨i₀, hi₀⟩ := exists_nat_gt (B / (p.dt * (c - p.l ^ 2 / (4 * p.a)) / (p.C + p.e * p.D)))
  refine ⟨i₀, fun d n T TD U hd h i hi hin => ?_⟩
  rw [(val L hm hp hr.ok hd h i hin).1]
  refine lt_of_lt_of_le ?_ (TLPar.runaway hr ha hc i)
  rw [div_lt_iff₀ hs] at hi₀
  have : (i₀ : ℝ) ≤ i := by exact_mod_cast hi
  have := mul_le_mul_of_nonneg_left this hs.le
  linarith

/-- … and no run under such a forcing is ever stationary. -/
theorem C26_no_steady_state {m : TLM N XR} (hm : TLM.Reachable R m) {p : TLPar} (hp : m.Phys R p)
    (ha : 0 < p.a) (hh : p.h ≠ 0) {c : ℝ} (hc : p.l ^ 2 / (4 * p.a) < c) {d : DArg N XR} {n : ℕ} {T TD U : ℕ → ℝ}
    (hd : IsForcing R d n (fun _ => c)) (h : TLM.Produces R m d n T TD U) {i : ℕ} (hi : i + 1 < n) :
    ¬ (T (i + 1) = T i ∧ TD (i + 1) = TD i) := by
  rintro ⟨h1, h2⟩
  have hok := TLM.produces_ok L (TLM.Reachable.coherent R L.toDimensional hm) hp (by omega) hd h
  obtain ⟨-, hs⟩ := (C15_two_layer L hm hp hok (by omega) hd T TD U).mp h
  obtain ⟨a, b, -⟩ := hs i hi
  rw [h1, sub_self, zero_div, mul_zero] at a
  rw [h2, sub_self, zero_div, mul_zero] at b
  have hTD : T i - TD i = 0 := by
    rcases mul_eq_zero.mp b.symm with h | h
    · exact absurd h hh
    · exact h
  rw [hTD] at a
  have hq : 0 ≤ p.a * T i ^ 2 - p.l * T i + p.l ^ 2 / (4 * p.a) := by
    have : p.a * T i ^ 2 - p.l * T i + p.l ^ 2 / (4 * p.a) = p.a * (T i - p.l / (2 * p.a)) ^ 2 := by
      field_simp; ring
    rw [this]; positivity
  nlinarith

/-- Concrete case: the default parameters with `a = 0.1` and 20 W/m² (the threshold is about 3.9 W/m²). -/
example : { TLPar.default with a := 0.1 }.Resolved ∧ TLPar.default.l ^ 2 / (4 * 0.1) < 20 ∧
    ∃ m : TLM U0 XR, TLM.Reachable U0.reg m ∧ m.Phys U0.reg { TLPar.default with a := 0.1 } ∧
    ∃ d T TD U, IsForcing U0.reg d 1000 (fun _ => 20) ∧ TLM.Produces U0.reg m d 1000 T TD U := by
  refine ⟨by constructor <;> norm_num [TLPar.default], by norm_num [TLPar.default], ?_⟩
  obtain ⟨m, h1, h2, h3⟩ := TLM.any_run U0.lawful { TLPar.default with a := 0.1 }
    (by constructor <;> norm_num [TLPar.default]) (n := 1000) (by norm_num) (fun _ => 20)
  exact ⟨m, h1, h2, _, _, _, _, forcing_exists _ _, h3⟩

/-! ## C27 -/

/-- A time step longer than twice the fast timescale: the upper temperature under any non-zero constant forcing
grows beyond every bound. -/
theorem C27_two_layer {m : TLM N XR} (hm : TLM.Reachable R m) {p : TLPar} (hp : m.Phys R p) (hpos : p.Pos)
    (ha : p.a = 0) (hdt : 2 * p.tau1 < p.dt) {c : ℝ} (hc : c ≠ 0) (B : ℝ) :
    ∃ i₀ : ℕ, ∀ d n T TD U, IsForcing R d n (fun _ => c) → TLM.Produces R m d n T TD U →
      ∀ i, i₀ ≤ i → i < n → B < |T i| := by
  have := (TLPar.diverge hpos ha hdt hc).eventually_gt_atTop B
  obtain ⟨i₀, hi₀⟩ := Filter.eventually_atTop.mp this
  refine ⟨i₀, fun d n T TD U hd h i hi hin => ?_⟩
  rw [(val L hm hp hpos.ok hd h i hin).1]
  exact hi₀ i hi

/-- The step selected by `run_scenarios` for annual data is such a step for a 1 m mixed layer with otherwise default
parameters. -/
theorem C27_annual_step : ∃ p : TLPar, p = { TLPar.default with C := 1 * (1000 * 4181) } ∧ p.Pos ∧ p.a = 0 ∧
    IsNum R ⟨.fin 1, R.yr⟩ R.s p.dt ∧ 2 * p.tau1 < p.dt ∧
    ∃ m, TLM.Reachable R m ∧ m.Phys R p ∧ IsNum R m.du R.m 1 := by
  refine ⟨_, rfl, ?_, rfl, yr_in_s L, ?_, ?_⟩
  · constructor <;> norm_num [TLPar.default]
  · set p : TLPar := { TLPar.default with C := 1 * (1000 * 4181) } with hpdef
    have hpos : p.Pos := by constructor <;> norm_num [p, TLPar.default]
    have h := hpos.rates
    have t1 := hpos.tau1_pos; have t2 := hpos.tau2_pos; have ht := hpos.tau_lt
    have hlt : 1 / p.tau2 < 1 / p.tau1 := one_div_lt_one_div_of_lt t1 ht
    have hv : (p.l + p.e * p.h) / p.C + p.h / p.D = (3.74 / 3 + 0.8) / 4181000 + 0.8 / (1200 * (1000 * 4181)) := by
      norm_num [p, TLPar.default]
    rw [hv] at h
    have h2 : 2 / 15000000 < 1 / p.tau1 := by
      have : (4 : ℝ) / 15000000 < (3.74 / 3 + 0.8) / 4181000 + 0.8 / (1200 * (1000 * 4181)) := by norm_num
      linarith
    have h3 : p.tau1 < 7500000 := by
      rw [div_lt_div_iff₀ (by norm_num) t1] at h2; linarith
    have h4 : p.dt = 31557600 := rfl
    rw [h4]; linarith
  · obtain ⟨m, h1, h2⟩ := TLM.exists_phys L { TLPar.default with C := 1 * (1000 * 4181) }
    refine ⟨m, h1, h2, ?_⟩
    have := h2.du
    simpa using this

end TwoLayer
