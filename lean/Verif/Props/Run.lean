import Verif.Spec.Observe
import Verif.Proofs.Init

/-!
# C01–C08: running a model

Theorems over an arbitrary arithmetic `[Arith α]` hold for IEEE doubles, rounding included.
-/

set_option linter.unusedSimpArgs false
set_option linter.unusedSectionVars false

namespace TwoLayer
variable {N α : Type} [Fintype N] [DecidableEq N] [Arith α]

/-! ## helpers -/

theorem callSeq_replicate {σ : Type} (x : Py σ Unit) (n : Nat) : callSeq (List.replicate n x) = Py.times x n := by
  funext s
  induction n generalizing s with
  | zero => rfl
  | succ n ih =>
    rw [List.replicate_succ, Py.times_succ]
    simp only [callSeq]
    rcases x s with ⟨s', _ | _⟩
    · rfl
    · exact ih s'

theorem callSeq_append {σ : Type} (xs ys : List (Py σ Unit)) (s : σ) :
    callSeq (xs ++ ys) s = match callSeq xs s with
      | (s', .ok _) => callSeq ys s'
      | (s', .error e) => (s', .error e) := by
  induction xs generalizing s with
  | nil => rfl
  | cons x xs ih =>
    simp only [List.cons_append, callSeq]
    rcases x s with ⟨s', _ | _⟩
    · rfl
    · exact ih s'

/-- the drivers of a successful simulation -/
theorem GoodDrivers.of_eq {R : Registry N α} {d : DArg N α} {vals vals' : List α} {u u' : Units N}
    (h : GoodDrivers R d vals' u') (hd : d = .qty ⟨1, vals⟩ u) : vals' = vals ∧ u' = u := by
  obtain ⟨rfl, -, -⟩ := h
  cases hd
  exact ⟨rfl, rfl⟩

theorem TLM.reported {e : Eng α} {F : List α} {v : View α} {n : Nat} (m : TLM N α) (hI : View.Inv e F n v) (hn : n = F.length)
    {i : Nat} {a b c : α} (hi : i < n) (hs : e.seq F i = .ok (a, b, c)) :
    reportedAt (m.setView v).outputs i = [("Surface Temperature|Upper", "delta_degC", some a),
      ("Surface Temperature|Lower", "delta_degC", some b), ("Heat Uptake", "W/m^2", some c)] := by
  obtain ⟨a', b', c', h1, h2, h3, h4⟩ := hI.done i hi
  rw [hs] at h1; cases h1
  simp [reportedAt, outputs, setView, h2, h3, h4]

theorem IRM.reported {e : Eng α} {F : List α} {v : View α} {n : Nat} (m : IRM N α) (hI : View.Inv e F n v) (hn : n = F.length)
    {i : Nat} {a b c : α} (hi : i < n) (hs : e.seq F i = .ok (a, b, c)) :
    reportedAt (m.setView v).outputs i = [("Surface Temperature|Box 1", "delta_degC", some a),
      ("Surface Temperature|Box 2", "delta_degC", some b), ("Surface Temperature", "delta_degC", some (a + b)),
      ("Heat Uptake", "W/m^2", some c)] := by
  obtain ⟨a', b', c', h1, h2, h3, h4⟩ := hI.done i hi
  rw [hs] at h1; cases h1
  simp [reportedAt, outputs, setView, h2, h3, h4, List.getElem?_zipWith]

/-- a complete view is determined by the recurrence -/
theorem View.Inv.ext {e : Eng α} {F : List α} {v w : View α} (h : View.Inv e F F.length v)
    (h' : View.Inv e F F.length w) : v = w := by
  have key : ∀ i : Nat, v.A[i]? = w.A[i]? ∧ v.B[i]? = w.B[i]? ∧ v.C[i]? = w.C[i]? := by
    intro i
    by_cases hi : i < F.length
    · obtain ⟨a, b, c, h1, h2, h3, h4⟩ := h.done i hi
      obtain ⟨a', b', c', g1, g2, g3, g4⟩ := h'.done i hi
      rw [h1] at g1; cases g1
      exact ⟨h2.trans g2.symm, h3.trans g3.symm, h4.trans g4.symm⟩
    · rw [List.getElem?_eq_none (by rw [h.lA]; omega), List.getElem?_eq_none (by rw [h'.lA]; omega),
        List.getElem?_eq_none (by rw [h.lB]; omega), List.getElem?_eq_none (by rw [h'.lB]; omega),
        List.getElem?_eq_none (by rw [h.lC]; omega), List.getElem?_eq_none (by rw [h'.lC]; omega)]
      exact ⟨rfl, rfl, rfl⟩
  ext1
  · rw [h.idx, h'.idx]
  · exact List.ext_getElem? fun i => (key i).1
  · exact List.ext_getElem? fun i => (key i).2.1
  · exact List.ext_getElem? fun i => (key i).2.2
  · rw [h.hF, h'.hF]

/-! ## C01 Outputs start at zero -/

/-- After `set_drivers`, `reset`, `run` every reported series starts with `0.0`. -/
theorem C01_two_layer (R : Registry N α) (m m' : TLM N α) (vals : List α) (u : Units N) (hne : vals ≠ [])
    (h : TLM.simulate R (.qty ⟨1, vals⟩ u) m = (m', .ok ())) :
    ∀ o ∈ m'.outputs, o.2.2.head? = some (Arith.dec 0 1) := by
  obtain ⟨vals', u', v, hg, rfl, hI⟩ := TLM.simulate_ok h
  obtain ⟨rfl, rfl⟩ := hg.of_eq rfl
  have hpos : 0 < vals'.length := List.length_pos_iff.mpr hne
  obtain ⟨a, b, c, h1, h2, h3, h4⟩ := hI.done 0 hpos
  simp only [Eng.seq] at h1
  cases h1
  intro o ho
  simp only [TLM.outputs, TLM.setView, List.mem_cons, List.not_mem_nil, or_false] at ho
  rcases ho with rfl | rfl | rfl <;> simp [List.head?_eq_getElem?, h2, h3, h4]

/-- As above, for the impulse response model; `0.0 + 0.0 = 0.0` holds in IEEE arithmetic and over `XR`. -/
theorem C01_impulse_response (R : Registry N α) (m m' : IRM N α) (vals : List α) (u : Units N) (hne : vals ≠ [])
    (hz : (Arith.dec 0 1 + Arith.dec 0 1 : α) = Arith.dec 0 1)
    (h : IRM.simulate R (.qty ⟨1, vals⟩ u) m = (m', .ok ())) :
    ∀ o ∈ m'.outputs, o.2.2.head? = some (Arith.dec 0 1) := by
  obtain ⟨vals', u', v, hg, rfl, hI⟩ := IRM.simulate_ok h
  obtain ⟨rfl, rfl⟩ := hg.of_eq rfl
  have hpos : 0 < vals'.length := List.length_pos_iff.mpr hne
  obtain ⟨a, b, c, h1, h2, h3, h4⟩ := hI.done 0 hpos
  simp only [Eng.seq] at h1
  cases h1
  intro o ho
  simp only [IRM.outputs, IRM.setView, List.mem_cons, List.not_mem_nil, or_false] at ho
  rcases ho with rfl | rfl | rfl | rfl <;>
    simp [List.head?_eq_getElem?, h2, h3, h4, List.getElem?_zipWith, hz]

/-! ## C02 Causality -/

/-- If two driver series agree on their first `k` values, the reported values agree at every index `≤ k` that
both runs have. -/
theorem C02_two_layer (R : Registry N α) (m m₁ m₂ : TLM N α) (x y : List α) (u : Units N) (k : Nat)
    (hxy : x.take k = y.take k)
    (h₁ : TLM.simulate R (.qty ⟨1, x⟩ u) m = (m₁, .ok ())) (h₂ : TLM.simulate R (.qty ⟨1, y⟩ u) m = (m₂, .ok ())) :
    ∀ i ≤ k, i < x.length → i < y.length → reportedAt m₁.outputs i = reportedAt m₂.outputs i := by
  obtain ⟨x', u₁, v₁, g₁, rfl, I₁⟩ := TLM.simulate_ok h₁
  obtain ⟨rfl, rfl⟩ := g₁.of_eq rfl
  obtain ⟨y', u₂, v₂, g₂, rfl, I₂⟩ := TLM.simulate_ok h₂
  obtain ⟨rfl, rfl⟩ := g₂.of_eq rfl
  intro i hi hix hiy
  obtain ⟨a, b, c, s₁, -⟩ := I₁.done i hix
  have htake : x'.take i = y'.take i := by
    have := congrArg (List.take i) hxy
    simpa [List.take_take, Nat.min_eq_left hi] using this
  have s₂ : m.eng.seq (modelF R y' u₂) i = .ok (a, b, c) := by
    rw [← s₁]; symm
    exact Eng.seq_congr _ _ _ i (by rw [modelF_take, modelF_take, htake])
  rw [TLM.reported _ I₁ (by simp) hix s₁, TLM.reported _ I₂ (by simp) hiy s₂]

theorem C02_impulse_response (R : Registry N α) (m m₁ m₂ : IRM N α) (x y : List α) (u : Units N) (k : Nat)
    (hxy : x.take k = y.take k)
    (h₁ : IRM.simulate R (.qty ⟨1, x⟩ u) m = (m₁, .ok ())) (h₂ : IRM.simulate R (.qty ⟨1, y⟩ u) m = (m₂, .ok ())) :
    ∀ i ≤ k, i < x.length → i < y.length → reportedAt m₁.outputs i = reportedAt m₂.outputs i := by
  obtain ⟨x', u₁, v₁, g₁, rfl, I₁⟩ := IRM.simulate_ok h₁
  obtain ⟨rfl, rfl⟩ := g₁.of_eq rfl
  obtain ⟨y', u₂, v₂, g₂, rfl, I₂⟩ := IRM.simulate_ok h₂
  obtain ⟨rfl, rfl⟩ := g₂.of_eq rfl
  intro i hi hix hiy
  obtain ⟨a, b, c, s₁, -⟩ := I₁.done i hix
  have htake : x'.take i = y'.take i := by
    have := congrArg (List.take i) hxy
    simpa [List.take_take, Nat.min_eq_left hi] using this
  have s₂ : (m.eng R).seq (modelF R y' u₂) i = .ok (a, b, c) := by
    rw [← s₁]; symm
    exact Eng.seq_congr _ _ _ i (by rw [modelF_take, modelF_take, htake])
  rw [IRM.reported _ I₁ (by simp) hix s₁, IRM.reported _ I₂ (by simp) hiy s₂]

/-! ## C03 The last driver value has no effect -/

/-- Replacing the last driver value by any other number changes no reported value. -/
theorem C03_two_layer (R : Registry N α) (m m' : TLM N α) (xs : List α) (x y : α) (u : Units N)
    (hy : Arith.isNaN y = false) (h : TLM.simulate R (.qty ⟨1, xs ++ [x]⟩ u) m = (m', .ok ())) :
    ∃ m'', TLM.simulate R (.qty ⟨1, xs ++ [y]⟩ u) m = (m'', .ok ()) ∧ m''.outputs = m'.outputs := by
  obtain ⟨vals, u', v, hg, rfl, hI⟩ := TLM.simulate_ok h
  obtain ⟨rfl, rfl⟩ := hg.of_eq rfl
  obtain ⟨-, hu, hn⟩ := hg
  have hg' : GoodDrivers R (.qty ⟨1, xs ++ [y]⟩ u') (xs ++ [y]) u' := ⟨rfl, hu, by
    simp only [List.any_append, Bool.or_eq_false_iff] at hn ⊢
    simp [hn.1, hy]⟩
  obtain ⟨m'', hm''⟩ := TLM.simulate_succeeds R m hg'
  refine ⟨m'', hm'', ?_⟩
  obtain ⟨vals, u'', w, hg2, rfl, hJ⟩ := TLM.simulate_ok hm''
  obtain ⟨rfl, rfl⟩ := hg2.of_eq rfl
  have key : ∀ i : Nat, v.A[i]? = w.A[i]? ∧ v.B[i]? = w.B[i]? ∧ v.C[i]? = w.C[i]? := by
    intro i
    by_cases hi : i < (xs ++ [x]).length
    · obtain ⟨a, b, c, h1, h2, h3, h4⟩ := hI.done i hi
      obtain ⟨a', b', c', g1, g2, g3, g4⟩ := hJ.done i (by simpa using hi)
      rw [Eng.seq_congr _ _ (modelF R (xs ++ [y]) u'') i (by
        rw [modelF_take, modelF_take, List.take_append_of_le_length (by simp at hi; omega),
          List.take_append_of_le_length (by simp at hi; omega)])] at h1
      rw [h1] at g1; cases g1
      exact ⟨h2.trans g2.symm, h3.trans g3.symm, h4.trans g4.symm⟩
    · have lv := hI.lA; have lw := hJ.lA; have l2 := hI.lB; have l3 := hI.lC; have l4 := hJ.lB; have l5 := hJ.lC
      simp only [modelF_length, List.length_append, List.length_singleton] at lv lw l2 l3 l4 l5 hi
      rw [List.getElem?_eq_none (by omega), List.getElem?_eq_none (by omega), List.getElem?_eq_none (by omega),
        List.getElem?_eq_none (by omega), List.getElem?_eq_none (by omega), List.getElem?_eq_none (by omega)]
      exact ⟨rfl, rfl, rfl⟩
  have hA : v.A = w.A := List.ext_getElem? fun i => (key i).1
  have hB : v.B = w.B := List.ext_getElem? fun i => (key i).2.1
  have hC : v.C = w.C := List.ext_getElem? fun i => (key i).2.2
  simp [TLM.outputs, TLM.setView, hA, hB, hC]

theorem C03_impulse_response (R : Registry N α) (m m' : IRM N α) (xs : List α) (x y : α) (u : Units N)
    (hy : Arith.isNaN y = false) (h : IRM.simulate R (.qty ⟨1, xs ++ [x]⟩ u) m = (m', .ok ())) :
    ∃ m'', IRM.simulate R (.qty ⟨1, xs ++ [y]⟩ u) m = (m'', .ok ()) ∧ m''.outputs = m'.outputs := by
  obtain ⟨vals, u', v, hg, rfl, hI⟩ := IRM.simulate_ok h
  obtain ⟨rfl, rfl⟩ := hg.of_eq rfl
  obtain ⟨-, hu, hn⟩ := hg
  have hg' : GoodDrivers R (.qty ⟨1, xs ++ [y]⟩ u') (xs ++ [y]) u' := ⟨rfl, hu, by
    simp only [List.any_append, Bool.or_eq_false_iff] at hn ⊢
    simp [hn.1, hy]⟩
  have hseq : ∀ i < (xs ++ [x]).length, (m.eng R).seq (modelF R (xs ++ [x]) u') i =
      (m.eng R).seq (modelF R (xs ++ [y]) u') i := fun i hi => Eng.seq_congr _ _ _ i (by
        rw [modelF_take, modelF_take, List.take_append_of_le_length (by simp at hi; omega),
          List.take_append_of_le_length (by simp at hi; omega)])
  obtain ⟨w, hw, hJ⟩ := (IRM.stepper R).times_ok (m.ready R (xs ++ [y]) u') (modelF R (xs ++ [y]) u') rfl
    (xs ++ [y]).length (by simp) (fun i hi => by
      obtain ⟨a, b, c, h1, -⟩ := hI.done i (by simpa using hi)
      exact ⟨(a, b, c), by rw [← h1]; exact (hseq i (by simpa using hi)).symm⟩)
  refine ⟨_, (IRM.simulate_good R m hg').trans hw, ?_⟩
  have key : ∀ i : Nat, v.A[i]? = w.A[i]? ∧ v.B[i]? = w.B[i]? ∧ v.C[i]? = w.C[i]? := by
    intro i
    by_cases hi : i < (xs ++ [x]).length
    · obtain ⟨a, b, c, h1, h2, h3, h4⟩ := hI.done i hi
      obtain ⟨a', b', c', g1, g2, g3, g4⟩ := hJ.done i (by simpa using hi)
      rw [hseq i hi] at h1
      have g1' : (m.eng R).seq (modelF R (xs ++ [y]) u') i = .ok (a', b', c') := g1
      rw [h1] at g1'; cases g1'
      exact ⟨h2.trans g2.symm, h3.trans g3.symm, h4.trans g4.symm⟩
    · have lv := hI.lA; have lw := hJ.lA; have l2 := hI.lB; have l3 := hI.lC; have l4 := hJ.lB; have l5 := hJ.lC
      simp only [modelF_length, List.length_append, List.length_singleton] at lv lw l2 l3 l4 l5 hi
      rw [List.getElem?_eq_none (by omega), List.getElem?_eq_none (by omega), List.getElem?_eq_none (by omega),
        List.getElem?_eq_none (by omega), List.getElem?_eq_none (by omega), List.getElem?_eq_none (by omega)]
      exact ⟨rfl, rfl, rfl⟩
  have hA : v.A = w.A := List.ext_getElem? fun i => (key i).1
  have hB : v.B = w.B := List.ext_getElem? fun i => (key i).2.1
  have hC : v.C = w.C := List.ext_getElem? fun i => (key i).2.2
  simp [IRM.outputs, IRM.setView, IRM.stepper, hA, hB, hC]

/-! ## C04 Complete output of the right length -/

/-- One value per driver value in every series, and the time index rests on the last driver. -/
theorem C04_two_layer (R : Registry N α) (m m' : TLM N α) (vals : List α) (u : Units N)
    (h : TLM.simulate R (.qty ⟨1, vals⟩ u) m = (m', .ok ())) :
    (∀ o ∈ m'.outputs, o.2.2.length = vals.length) ∧ (vals ≠ [] → m'.idx = some (vals.length - 1)) := by
  obtain ⟨vals', u', v, hg, rfl, hI⟩ := TLM.simulate_ok h
  obtain ⟨rfl, rfl⟩ := hg.of_eq rfl
  have lA := hI.lA; have lB := hI.lB; have lC := hI.lC
  rw [modelF_length] at lA lB lC
  refine ⟨?_, ?_⟩
  · intro o ho
    simp only [TLM.outputs, TLM.setView, List.mem_cons, List.not_mem_nil, or_false] at ho
    rcases ho with rfl | rfl | rfl <;> simp [lA, lB, lC]
  · intro hne
    have := hI.idx
    rw [if_neg (by simpa using hne)] at this
    exact this

theorem C04_impulse_response (R : Registry N α) (m m' : IRM N α) (vals : List α) (u : Units N)
    (h : IRM.simulate R (.qty ⟨1, vals⟩ u) m = (m', .ok ())) :
    (∀ o ∈ m'.outputs, o.2.2.length = vals.length) ∧ (vals ≠ [] → m'.idx = some (vals.length - 1)) := by
  obtain ⟨vals', u', v, hg, rfl, hI⟩ := IRM.simulate_ok h
  obtain ⟨rfl, rfl⟩ := hg.of_eq rfl
  have lA := hI.lA; have lB := hI.lB; have lC := hI.lC
  rw [modelF_length] at lA lB lC
  refine ⟨?_, ?_⟩
  · intro o ho
    simp only [IRM.outputs, IRM.setView, List.mem_cons, List.not_mem_nil, or_false] at ho
    rcases ho with rfl | rfl | rfl | rfl <;> simp [lA, lB, lC]
  · intro hne
    have := hI.idx
    rw [if_neg (by simpa using hne)] at this
    exact this

/-! ## C05 run is stepping once per driver -/

/-- `run()` leaves the same object and raises the same error as one `step()` call per driver value, however
the calls are split into a first and a second batch. -/
theorem C05_two_layer (m : TLM N α) (vals : List α) (u : Units N) (h : m.core.erf = .set vals u) :
    TLM.run m = callSeq (List.replicate vals.length TLM.step) m ∧
    ∀ k ≤ vals.length, ∀ m₁,
      (callSeq (List.replicate k TLM.step) m = (m₁, .ok ()) →
        TLM.run m = callSeq (List.replicate (vals.length - k) TLM.step) m₁) ∧
      (∀ e, callSeq (List.replicate k TLM.step) m = (m₁, .error e) → TLM.run m = (m₁, .error e)) := by
  have h1 : TLM.run m = callSeq (List.replicate vals.length TLM.step) m := by
    rw [callSeq_replicate]
    simp [TLM.run, h, Erf.length]
  refine ⟨h1, fun k hk m₁ => ?_⟩
  rw [h1, show vals.length = k + (vals.length - k) by omega, List.replicate_add, callSeq_append]
  refine ⟨fun h => ?_, fun e h => ?_⟩
  · rw [h]; simp
  · rw [h]

theorem C05_impulse_response (R : Registry N α) (m : IRM N α) (vals : List α) (u : Units N)
    (h : m.core.erf = .set vals u) :
    IRM.run R m = callSeq (List.replicate vals.length (IRM.step R)) m ∧
    ∀ k ≤ vals.length, ∀ m₁,
      (callSeq (List.replicate k (IRM.step R)) m = (m₁, .ok ()) →
        IRM.run R m = callSeq (List.replicate (vals.length - k) (IRM.step R)) m₁) ∧
      (∀ e, callSeq (List.replicate k (IRM.step R)) m = (m₁, .error e) → IRM.run R m = (m₁, .error e)) := by
  have h1 : IRM.run R m = callSeq (List.replicate vals.length (IRM.step R)) m := by
    rw [callSeq_replicate]
    simp [IRM.run, h, Erf.length]
  refine ⟨h1, fun k hk m₁ => ?_⟩
  rw [h1, show vals.length = k + (vals.length - k) by omega, List.replicate_add, callSeq_append]
  refine ⟨fun h => ?_, fun e h => ?_⟩
  · rw [h]; simp
  · rw [h]

/-! ## C06 No overrun -/

/-- a completed two-layer run -/
structure TLM.Done (m : TLM N α) (n : Nat) : Prop where
  pos : 0 < n
  lens : m.tl.length = m.tu.length ∧ m.rndt.length = m.tu.length
  len : m.tu.length = n
  erf : ∃ F, m.core.erfMag = some F ∧ F.length = n
  erfLen : m.core.erf.length = n
  idx : n ≤ nextIdx m.idx

theorem TLM.Done.step {m : TLM N α} {n : Nat} (h : m.Done n) :
    ∃ i, TLM.step m = ({ m with idx := some i }, .error .index) ∧ TLM.Done { m with idx := some i } n := by
  obtain ⟨F, hF, hFl⟩ := h.erf
  obtain ⟨e, he, hi⟩ := TLM.step_over m h.lens.1 h.lens.2 (by rw [h.len]; exact h.idx)
  have := hi (Or.inr fun F' hF' => by rw [hF] at hF'; cases hF'; rw [hFl, h.len]) (by rw [hF]; rfl)
  subst this
  refine ⟨_, he, { h with idx := ?_ }⟩
  have := h.idx
  simp only [nextIdx] at this ⊢
  omega

theorem TLM.Done.run {m : TLM N α} {n : Nat} (h : m.Done n) :
    ∃ i, TLM.run m = ({ m with idx := some i }, .error .index) ∧ TLM.Done { m with idx := some i } n := by
  obtain ⟨i, h1, h2⟩ := h.step
  refine ⟨i, ?_, h2⟩
  obtain ⟨k, hk⟩ : ∃ k, n = k + 1 := ⟨n - 1, by have := h.pos; omega⟩
  have : TLM.run m = Py.times TLM.step m.core.erf.length m := by simp [TLM.run]
  rw [this, h.erfLen, hk, Py.times_succ, h1]

theorem TLM.Done.of_simulate {R : Registry N α} {m m' : TLM N α} {vals : List α} {u : Units N} (hne : vals ≠ [])
    (h : TLM.simulate R (.qty ⟨1, vals⟩ u) m = (m', .ok ())) : m'.Done vals.length := by
  obtain ⟨vals', u', v, hg, rfl, hI⟩ := TLM.simulate_ok h
  obtain ⟨rfl, rfl⟩ := hg.of_eq rfl
  have lA := hI.lA; have lB := hI.lB; have lC := hI.lC
  rw [modelF_length] at lA lB lC
  have hpos := List.length_pos_iff.mpr hne
  refine ⟨hpos, ⟨lB.trans lA.symm, lC.trans lA.symm⟩, lA, ⟨_, rfl, by simp⟩, rfl, ?_⟩
  have := hI.next_idx
  show vals'.length ≤ nextIdx v.idx
  omega

/-- After a completed run, every further `step()` or `run()` raises IndexError and no reported value changes,
however many such calls are made. -/
theorem C06_two_layer (R : Registry N α) (m m' : TLM N α) (vals : List α) (u : Units N) (hne : vals ≠ [])
    (h : TLM.simulate R (.qty ⟨1, vals⟩ u) m = (m', .ok ()))
    (calls : List (Py (TLM N α) Unit)) (hc : ∀ c ∈ calls, c = TLM.step ∨ c = TLM.run) :
    (callAll calls m').1.outputs = m'.outputs ∧ ∀ r ∈ (callAll calls m').2, r = .error .index := by
  have hd := TLM.Done.of_simulate hne h
  clear h
  induction calls generalizing m' with
  | nil => exact ⟨rfl, by simp [callAll]⟩
  | cons c cs ih =>
    have : ∃ i, c m' = ({ m' with idx := some i }, .error .index) ∧ TLM.Done { m' with idx := some i } vals.length := by
      rcases hc c (by simp) with rfl | rfl
      · exact hd.step
      · exact hd.run
    obtain ⟨i, h1, h2⟩ := this
    obtain ⟨g1, g2⟩ := ih _ (fun c hc' => hc c (by simp [hc'])) h2
    simp only [callAll, h1]
    refine ⟨g1, ?_⟩
    intro r hr
    rcases List.mem_cons.mp hr with rfl | hr
    · rfl
    · exact g2 r hr

/-- a completed impulse response run -/
structure IRM.Done (m : IRM N α) (n : Nat) : Prop where
  pos : 0 < n
  lens : m.t2.length = m.t1.length ∧ m.rndt.length = m.t1.length
  len : m.t1.length = n
  erf : ∃ F, m.core.erfMag = some F ∧ F.length = n
  erfLen : m.core.erf.length = n
  idx : n ≤ nextIdx m.idx

theorem IRM.Done.step {R : Registry N α} {m : IRM N α} {n : Nat} (h : m.Done n) :
    ∃ i e, IRM.step R m = ({ m with idx := some i }, .error e) ∧ IRM.Done { m with idx := some i } n ∧
      ((Arith.eq m.d1Mag (Arith.ofNat 0) && (Arith.isPy (-m.core.deltaTMag) && Arith.isPy m.d1Mag)) = false → e = .index) := by
  obtain ⟨F, hF, hFl⟩ := h.erf
  obtain ⟨e, he, hi⟩ := IRM.step_over R m h.lens.1 h.lens.2 (by rw [h.len]; exact h.idx)
  have := hi (Or.inr fun F' hF' => by rw [hF] at hF'; cases hF'; rw [hFl, h.len]) (by rw [hF]; rfl)
  refine ⟨_, e, he, { h with idx := ?_ }, fun hd => this fun t f => ?_⟩
  · have := h.idx
    simp only [nextIdx] at this ⊢
    omega
  · exact ⟨_, by simp only [IRM.calcNextTemp, pyDiv, hd, bind, Except.bind, pure, Except.pure]; rfl⟩

theorem IRM.Done.run {R : Registry N α} {m : IRM N α} {n : Nat} (h : m.Done n) :
    ∃ i e, IRM.run R m = ({ m with idx := some i }, .error e) ∧ IRM.Done { m with idx := some i } n ∧
      ((Arith.eq m.d1Mag (Arith.ofNat 0) && (Arith.isPy (-m.core.deltaTMag) && Arith.isPy m.d1Mag)) = false → e = .index) := by
  obtain ⟨i, e, h1, h2, h3⟩ := h.step (R := R)
  refine ⟨i, e, ?_, h2, h3⟩
  obtain ⟨k, hk⟩ : ∃ k, n = k + 1 := ⟨n - 1, by have := h.pos; omega⟩
  have : IRM.run R m = Py.times (IRM.step R) m.core.erf.length m := by simp [IRM.run]
  rw [this, h.erfLen, hk, Py.times_succ, h1]

theorem IRM.Done.of_simulate {R : Registry N α} {m m' : IRM N α} {vals : List α} {u : Units N} (hne : vals ≠ [])
    (h : IRM.simulate R (.qty ⟨1, vals⟩ u) m = (m', .ok ())) : m'.Done vals.length ∧ (m'.d1Mag = m.d1Mag ∧ m'.core.deltaTMag = m.core.deltaTMag) ∧
      (2 ≤ vals.length → (Arith.eq m.d1Mag (Arith.ofNat 0) && (Arith.isPy (-m.core.deltaTMag) && Arith.isPy m.d1Mag)) = false) := by
  obtain ⟨vals', u', v, hg, rfl, hI⟩ := IRM.simulate_ok h
  obtain ⟨rfl, rfl⟩ := hg.of_eq rfl
  have lA := hI.lA; have lB := hI.lB; have lC := hI.lC
  rw [modelF_length] at lA lB lC
  have hpos := List.length_pos_iff.mpr hne
  refine ⟨⟨hpos, ⟨lB.trans lA.symm, lC.trans lA.symm⟩, lA, ⟨_, rfl, by simp⟩, rfl, ?_⟩, ⟨rfl, rfl⟩, ?_⟩
  · have := hI.next_idx
    show vals'.length ≤ nextIdx v.idx
    omega
  · intro h2
    obtain ⟨a, b, c, h1, -⟩ := hI.done 1 (by omega)
    by_contra hne
    simp only [Bool.not_eq_false] at hne
    have hg0 : getAt (modelF R vals' u') 0 = .ok ((modelF R vals' u')[0]'(by simp; omega)) := by
      simp only [getAt]; rw [List.getElem?_eq_getElem (by simp; omega)]
    simp [Eng.seq, hg0, IRM.eng, IRM.calcNextTemp, pyDiv, hne, bind, Except.bind] at h1

/-- As above for the impulse response model.  The exception is IndexError when there are at least two driver
values or `d1` is not zero; with a single driver value and `d1 = 0` it is another exception. -/
theorem C06_impulse_response (R : Registry N α) (m m' : IRM N α) (vals : List α) (u : Units N) (hne : vals ≠ [])
    (h : IRM.simulate R (.qty ⟨1, vals⟩ u) m = (m', .ok ()))
    (calls : List (Py (IRM N α) Unit)) (hc : ∀ c ∈ calls, c = IRM.step R ∨ c = IRM.run R) :
    (callAll calls m').1.outputs = m'.outputs ∧ (∀ r ∈ (callAll calls m').2, ∃ e, r = .error e) ∧
      (2 ≤ vals.length ∨ Arith.eq m.d1Mag (Arith.ofNat 0) = false →
        ∀ r ∈ (callAll calls m').2, r = .error .index) := by
  obtain ⟨hd, hd1, h2⟩ := IRM.Done.of_simulate hne h
  clear h
  induction calls generalizing m' with
  | nil => exact ⟨rfl, by simp [callAll], by simp [callAll]⟩
  | cons c cs ih =>
    have : ∃ i e, c m' = ({ m' with idx := some i }, .error e) ∧ IRM.Done { m' with idx := some i } vals.length ∧
        ((Arith.eq m'.d1Mag (Arith.ofNat 0) && (Arith.isPy (-m'.core.deltaTMag) && Arith.isPy m'.d1Mag)) = false → e = .index) := by
      rcases hc c (by simp) with rfl | rfl
      · exact hd.step
      · exact hd.run
    obtain ⟨i, e, h1, hD, h3⟩ := this
    obtain ⟨g1, g2, g3⟩ := ih _ (fun c hc' => hc c (by simp [hc'])) hD hd1
    simp only [callAll, h1]
    refine ⟨g1, ?_, ?_⟩
    · intro r hr
      rcases List.mem_cons.mp hr with rfl | hr
      · exact ⟨_, rfl⟩
      · exact g2 r hr
    · intro hh r hr
      rcases List.mem_cons.mp hr with rfl | hr
      · rw [h3 (by rw [hd1.1, hd1.2]; rcases hh with hh | hh; exacts [h2 hh, by rw [hh, Bool.false_and]])]
      · exact g3 hh r hr

/-- Stepping `k ≥ 1` times by hand and then calling `run()` completes the results of a normal run and raises
IndexError (the loop makes `k` calls too many). -/
theorem C05_two_layer_step_then_run (R : Registry N α) (m m' : TLM N α) (vals : List α) (u : Units N) (k : Nat)
    (hk : 1 ≤ k) (hkn : k ≤ vals.length)
    (h : TLM.simulate R (.qty ⟨1, vals⟩ u) m = (m', .ok ())) :
    ∃ m'', callSeq ([TLM.setDrivers R (.qty ⟨1, vals⟩ u), TLM.reset] ++ List.replicate k TLM.step ++ [TLM.run]) m =
      (m'', .error .index) ∧ m''.outputs = m'.outputs := by
  have hne : vals ≠ [] := by rintro rfl; simp at hkn; omega
  have hD := TLM.Done.of_simulate hne h
  obtain ⟨vals', u', v, hg, hm', hI⟩ := TLM.simulate_ok h
  obtain ⟨rfl, rfl⟩ := hg.of_eq rfl
  have hsim := TLM.simulate_good R m hg
  rw [h] at hsim
  obtain ⟨n, hn⟩ : ∃ n, vals'.length = k + n := ⟨vals'.length - k, by omega⟩
  have hpre : callSeq [TLM.setDrivers R (.qty ⟨1, vals'⟩ u'), TLM.reset] m = (m.ready R vals' u', .ok ()) := by
    obtain ⟨-, hu, hnan⟩ := hg
    simp only [callSeq]
    rw [TLM.setDrivers_good R m hu]
    simp only
    rw [TLM.reset_set _ rfl rfl hnan]
    rfl
  rw [callSeq_append, callSeq_append, hpre]
  simp only
  rw [callSeq_replicate]
  have hk1 := Py.times_add (TLM.step (N := N) (α := α)) k n (m.ready R vals' u')
  rw [← hn, ← hsim] at hk1
  cases hmid : Py.times TLM.step k (m.ready R vals' u') with
  | mk mk r =>
    rw [hmid] at hk1
    cases r with
    | error e => simp only at hk1; cases hk1
    | ok _ =>
      simp only at hk1
      have herf : mk.core.erf.length = vals'.length := by
        obtain ⟨v', hv', -⟩ := TLM.stepper.times_ok (m.ready R vals' u') (modelF R vals' u') rfl k (by simpa using hkn)
          (fun i hi => m.seq_ok _ i (by simp; omega))
        rw [show TLM.stepper.step = TLM.step (N := N) (α := α) from rfl, hmid] at hv'
        cases hv'
        rfl
      have hrun : TLM.run mk = Py.times TLM.step vals'.length mk := by simp [TLM.run, herf]
      simp only [callSeq, hrun]
      rw [hn, Nat.add_comm, Py.times_add, ← hk1]
      obtain ⟨j, rfl⟩ : ∃ j, k = j + 1 := ⟨k - 1, by omega⟩
      obtain ⟨i, hs, -⟩ := hD.step
      simp only [Py.times_succ, hs]
      exact ⟨_, rfl, rfl⟩

/-! ## C07 Reset refuses unset or NaN drivers -/

/-- On every object a program can hold: `reset()` raises ModelStateError, changing nothing, exactly when the
drivers are unset or contain a NaN, and succeeds otherwise. -/
theorem C07_two_layer [DecidableEq α] {R : Registry N α} (D : R.Dimensional) {m : TLM N α} (h : TLM.Reachable R m) :
    (UnsetOrNaN m.core.erf → TLM.reset m = (m, .error .modelState)) ∧
    (¬ UnsetOrNaN m.core.erf → ∃ m', TLM.reset m = (m', .ok ())) := by
  have hc := (TLM.Reachable.coherent R D h).core.erf
  cases he : m.core.erf with
  | unset =>
    refine ⟨fun _ => TLM.reset_nan m (by rw [he]; rfl), fun hn => absurd (Or.inl rfl) hn⟩
  | set vals u =>
    rw [he] at hc
    constructor
    · rintro (hh | ⟨_, _, hh, x, hx, hnx⟩)
      · cases hh
      · cases hh
        exact TLM.reset_nan m (by rw [he]; exact List.any_eq_true.mpr ⟨x, hx, hnx⟩)
    · intro hn
      refine ⟨_, TLM.reset_set m he hc.2 ?_⟩
      rw [List.any_eq_false]
      intro x hx hnx
      exact hn (Or.inr ⟨vals, u, rfl, x, hx, by simpa using hnx⟩)

theorem C07_impulse_response [DecidableEq α] {R : Registry N α} {m : IRM N α} (h : IRM.Reachable R m) :
    (UnsetOrNaN m.core.erf → IRM.reset m = (m, .error .modelState)) ∧
    (¬ UnsetOrNaN m.core.erf → ∃ m', IRM.reset m = (m', .ok ())) := by
  have hc := (IRM.Reachable.coherent R h).core.erf
  cases he : m.core.erf with
  | unset =>
    refine ⟨fun _ => IRM.reset_nan m (by rw [he]; rfl), fun hn => absurd (Or.inl rfl) hn⟩
  | set vals u =>
    rw [he] at hc
    constructor
    · rintro (hh | ⟨_, _, hh, x, hx, hnx⟩)
      · cases hh
      · cases hh
        exact IRM.reset_nan m (by rw [he]; exact List.any_eq_true.mpr ⟨x, hx, hnx⟩)
    · intro hn
      refine ⟨_, IRM.reset_set m he hc.2 ?_⟩
      rw [List.any_eq_false]
      intro x hx hnx
      exact hn (Or.inr ⟨vals, u, rfl, x, hx, by simpa using hnx⟩)

/-! ## C08 Runs are repeatable -/

/-- After a run, `reset()` and `run()`, repeated any number of times, succeed and leave exactly the same
object. -/
theorem C08_two_layer (R : Registry N α) (m m' : TLM N α) (d : DArg N α)
    (h : TLM.simulate R d m = (m', .ok ())) (k : Nat) :
    callSeq (List.replicate k (callSeq [TLM.reset, TLM.run])) m' = (m', .ok ()) := by
  obtain ⟨vals, u, v, hg, rfl, hI⟩ := TLM.simulate_ok h
  have hsim := TLM.simulate_good R m hg
  rw [h] at hsim
  have hone : callSeq [TLM.reset, TLM.run] ((m.ready R vals u).setView v) = ((m.ready R vals u).setView v, .ok ()) := by
    simp only [callSeq]
    rw [TLM.reset_set _ (vals := vals) (u := u) (F := modelF R vals u) rfl rfl hg.2.2]
    simp only
    have hrun : TLM.run (m.ready R vals u) = ((m.ready R vals u).setView v, .ok ()) := by
      rw [hsim]; rfl
    rw [show ({ (m.ready R vals u).setView v with
      tu := nanLike (modelF R vals u), tl := nanLike (modelF R vals u),
      rndt := nanLike (modelF R vals u), idx := none } : TLM N α) = m.ready R vals u from rfl, hrun]
  rw [callSeq_replicate]
  induction k with
  | zero => rfl
  | succ k ih => rw [Py.times_succ, hone]; exact ih

theorem C08_impulse_response (R : Registry N α) (m m' : IRM N α) (d : DArg N α)
    (h : IRM.simulate R d m = (m', .ok ())) (k : Nat) :
    callSeq (List.replicate k (callSeq [IRM.reset, IRM.run R])) m' = (m', .ok ()) := by
  obtain ⟨vals, u, v, hg, rfl, hI⟩ := IRM.simulate_ok h
  have hsim := IRM.simulate_good R m hg
  rw [h] at hsim
  have hone : callSeq [IRM.reset, IRM.run R] ((m.ready R vals u).setView v) = ((m.ready R vals u).setView v, .ok ()) := by
    simp only [callSeq]
    rw [IRM.reset_set _ (vals := vals) (u := u) (F := modelF R vals u) rfl rfl hg.2.2]
    simp only
    have hrun : IRM.run R (m.ready R vals u) = ((m.ready R vals u).setView v, .ok ()) := by
      rw [hsim]; rfl
    rw [show ({ (m.ready R vals u).setView v with
      t1 := nanLike (modelF R vals u), t2 := nanLike (modelF R vals u),
      rndt := nanLike (modelF R vals u), idx := none } : IRM N α) = m.ready R vals u from rfl, hrun]
  rw [callSeq_replicate]
  induction k with
  | zero => rfl
  | succ k ih => rw [Py.times_succ, hone]; exact ih

/-! ## Concrete runs meeting the hypotheses of C01–C08 -/

/-- A default two-layer model driven by `[1, 2, 3] W/m²` succeeds, and is a reachable object. -/
example : ∃ m m', TLM.Reachable U0.reg m ∧ TLM.simulate U0.reg (exDrivers U0.reg) m = (m', .ok ()) ∧
    (Arith.dec 0 1 + Arith.dec 0 1 : XR) = Arith.dec 0 1 := by
  obtain ⟨m, h1, -, m', h2, -⟩ := TLM.default_run U0.lawful
  exact ⟨m, m', h1, h2, by simp⟩

/-- A default impulse response model driven by `[1, 2, 3] W/m²` succeeds, and is a reachable object. -/
example : ∃ m m', IRM.Reachable U0.reg m ∧ IRM.simulate U0.reg (exDrivers U0.reg) m = (m', .ok ()) := by
  obtain ⟨m, h1, -, -, -, -, m', h2, -⟩ := IRM.default_run U0.lawful
  exact ⟨m, m', h1, h2⟩

/-- The two driver series `[1, 2, 3]` and `[1, 2, 7, 5]` agree on their first two values. -/
example : ([.fin 1, .fin 2, .fin 3] : List XR).take 2 = [.fin 1, .fin 2, .fin 7, .fin 5].take 2 := rfl

end TwoLayer
