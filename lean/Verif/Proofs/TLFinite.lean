import Verif.Proofs.Exact

/-!
# A two-layer run that reports numbers

If a run of more than one step reports numbers only, depths and time step were not zero; so what a run reports is the solution of
the recurrence for every parameter set: lemmas for C16 to C20 and C24.
-/

set_option linter.unusedSimpArgs false

namespace TwoLayer
variable {N : Type} [Fintype N] [DecidableEq N] {R : Registry N XR}

theorem XR.div_zero (x : ℝ) : (XR.fin x / XR.fin 0 : XR) = .nan := by rw [XR.fin_div_def, if_pos rfl]
theorem XR.nan_add' (x : XR) : (XR.nan + x : XR) = .nan := rfl
theorem XR.add_nan' (x : ℝ) : (XR.fin x + XR.nan : XR) = .nan := rfl
theorem XR.mul_nan' (x : ℝ) : (XR.fin x * XR.nan : XR) = .nan := rfl

section
variable (L : R.Lawful)
include L

/-- the values of a run, one by one -/
theorem TLM.produces_seq {m : TLM N XR} {d : DArg N XR} {n : ℕ} {F T TD U : ℕ → ℝ} (hd : IsForcing R d n F)
    (h : TLM.Produces R m d n T TD U) :
    ∀ i < n, m.eng.seq (series n F) i = .ok (.fin (T i), .fin (TD i), .fin (U i)) := by
  intro i hi
  obtain ⟨m', hm', ho⟩ := h
  obtain ⟨vals', u', v, hg', rfl, hI⟩ := TLM.simulate_ok hm'
  obtain ⟨vals, u, rfl, hlen, -, hmF⟩ := hd.good L
  obtain ⟨h1, -⟩ := hg'
  cases h1
  rw [hmF] at hI
  simp only [TLM.outputs, TLM.setView, List.cons.injEq, Prod.mk.injEq, true_and, and_true] at ho
  obtain ⟨o1, o2, o3⟩ := ho
  obtain ⟨a, b, c, g1, g2, g3, g4⟩ := hI.done i (by omega)
  rw [o1, series_getElem? n T i hi] at g2
  rw [o2, series_getElem? n TD i hi] at g3
  rw [o3, series_getElem? n U i hi] at g4
  cases g2; cases g3; cases g4
  exact g1

/-- a run of more than one step that reports numbers -/
theorem TLM.produces_ok {m : TLM N XR} {p : TLPar} (hc : m.Coherent R) (hp : m.Phys R p)
    {d : DArg N XR} {n : ℕ} (hn : 1 < n) {F : ℕ → ℝ} (hd : IsForcing R d n F) {T TD U : ℕ → ℝ}
    (h : TLM.Produces R m d n T TD U) : p.Ok := by
  have e1 : m.core.deltaTMag = .fin p.dt := by rw [hc.core.dtMag]; exact hp.dt.magIn
  have e2 : m.lambda0Mag = .fin p.l := by rw [hc.lambda0Mag]; exact hp.lambda0.magIn
  have e3 : m.aMag = .fin p.a := by rw [hc.aMag]; exact hp.a.magIn
  have e4 : m.efficacyMag = .fin p.e := by rw [hc.efficacyMag]; exact hp.efficacy.magIn
  have e5 : m.etaMag = .fin p.h := by rw [hc.etaMag]; exact hp.eta.magIn
  have e6 := TLM.Phys.hcu L hc hp
  have e7 := TLM.Phys.hcl L hc hp
  have s0 : m.eng.seq (series n F) 0 = .ok (.fin 0, .fin 0, .fin 0) := by simp [Eng.seq]
  have h1 := TLM.produces_seq L hd h 1 hn
  rw [Eng.seq] at h1
  simp only [s0, getAt, series_getElem? n F 0 (by omega)] at h1
  simp only [TLM.eng, TLM.calcNextTempUpper, TLM.calcNextTempLower, TLM.calcNextRndt, e1, e2, e3, e4, e5, e6, e7, XR.fin_sub,
    XR.fin_mul, XR.fin_add, Except.ok.injEq, Prod.mk.injEq] at h1
  obtain ⟨k1, k2, k3⟩ := h1
  have hC : p.C ≠ 0 := by
    intro h0
    rw [h0, XR.div_zero, XR.mul_nan', XR.add_nan'] at k1
    cases k1
  have hD : p.D ≠ 0 := by
    intro h0
    rw [h0, XR.div_zero, XR.mul_nan', XR.add_nan'] at k2
    cases k2
  refine ⟨hC, hD, fun h0 => ?_⟩
  simp only [XR.fin_div hC, XR.fin_div hD, XR.fin_mul, XR.fin_add, XR.fin_sub, h0, XR.div_zero] at k3
  cases k3

/-- what a run reports, whatever the parameters -/
theorem TLM.produces_any {m : TLM N XR} {p : TLPar} (hc : m.Coherent R) (hp : m.Phys R p)
    {d : DArg N XR} {n : ℕ} {F : ℕ → ℝ} (hd : IsForcing R d n F) {T TD U : ℕ → ℝ}
    (h : TLM.Produces R m d n T TD U) : ∀ i < n, T i = p.T F i ∧ TD i = p.TD F i ∧ U i = p.U F i := by
  intro i hi
  by_cases hn : 1 < n
  · exact TLM.produces_val L hc hp (TLM.produces_ok L hc hp hn hd h) hd h i hi
  · obtain rfl : i = 0 := by omega
    have h1 := TLM.produces_seq L hd h 0 hi
    have s0 : m.eng.seq (series n F) 0 = .ok (.fin 0, .fin 0, .fin 0) := by simp [Eng.seq]
    rw [s0] at h1
    simp only [Except.ok.injEq, Prod.mk.injEq, XR.fin_inj] at h1
    exact ⟨h1.1.symm, h1.2.1.symm, h1.2.2.symm⟩
end
end TwoLayer
