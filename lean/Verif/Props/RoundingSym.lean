import Verif.Proofs.RoundingSym
import Verif.Props.Rounding
import Verif.Props.RoundingState

/-!
# Exact facts about floating-point runs (C110, C111)

Nothing here is "up to rounding": the statements compare the reported floating-point numbers themselves.
`Rounding.Odd`, `Rounding.Ordered`, `negated` and `delayed` are in `Verif.Spec.RoundingSym`; IEEE-754 binary64 rounding to
nearest is odd and ordered (`double_odd`, `double_ordered`).
-/

set_option linter.unusedSimpArgs false
set_option linter.unusedSectionVars false

namespace TwoLayer
variable {N : Type} [Fintype N] [DecidableEq N] {r : Rounding} {R : Registry N (FR r)}

/-- **C110** (impulse response model).  Whatever the object's parameters: if a run under the forcing `F` succeeds, so does
one under `-F`, and it reports the same numbers with the opposite sign, bit for bit (NaN where the first reports NaN). -/
theorem C110_impulse_response (hr : r.Odd) {m m1 : IRM N (FR r)} {d d' : DArg N (FR r)} {n : ℕ} (hn : n ≠ 0) {F : ℕ → ℝ}
    (hd : IsFForcing R d n F) (hd' : IsFForcing R d' n fun i => -F i) (h : IRM.simulate R d m = (m1, .ok ())) :
    ∃ m2, IRM.simulate R d' m = (m2, .ok ()) ∧ m2.outputs = negated m1.outputs := by
  obtain ⟨vals, u, -, -, hg, hmF⟩ := hd.good hn
  obtain ⟨vals', u', -, -, hg', hmF'⟩ := hd'.good hn
  have hf := IRM.simulate_fills hg h
  have hf' := hf.neg hr (e' := m.eng R) (fun _ _ _ _ h => IRM.neg_temp hr h) (fun _ _ _ _ h => IRM.neg_temp hr h)
    (fun _ _ _ _ _ _ h => IRM.neg_rndt hr h)
  rw [hmF, fseries_neg, ← hmF'] at hf'
  obtain ⟨m2, hs, h1, h2, h3⟩ := IRM.simulate_of_fills hg' hf'
  refine ⟨m2, hs, ?_⟩
  have hz : ∀ A B : List (FR r), List.zipWith (· + ·) (A.map fun x => -x) (B.map fun x => -x) =
      (List.zipWith (· + ·) A B).map fun x => -x := by
    intro A B
    rw [List.zipWith_map, List.map_zipWith]
    congr 1
    funext x y
    exact FR.neg_add_neg hr x y
  simp only [IRM.outputs, negated, h1, h2, h3, hz, List.map_cons, List.map_nil]

/-- **C110** (two-layer model).  Two objects with the same parameters, except that the state dependence `a` has opposite
signs (one object will do if `a` is zero): under opposite forcings they report the same numbers with opposite signs, bit for
bit. -/
theorem C110_two_layer (D : R.Dimensional) (hr : r.Odd) {m m' : TLM N (FR r)} (hm : TLM.Reachable R m)
    (hm' : TLM.Reachable R m') {p : TLPar} (hp : m.FPhys R p) (hp' : m'.FPhys R { p with a := -p.a }) {d d' : DArg N (FR r)}
    {n : ℕ} (hn : n ≠ 0) {F : ℕ → ℝ} (hd : IsFForcing R d n F) (hd' : IsFForcing R d' n fun i => -F i) :
    ∃ m1 m2, TLM.simulate R d m = (m1, .ok ()) ∧ TLM.simulate R d' m' = (m2, .ok ()) ∧ m2.outputs = negated m1.outputs := by
  obtain ⟨vals, u, -, -, hg, hmF⟩ := hd.good hn
  obtain ⟨vals', u', -, -, hg', hmF'⟩ := hd'.good hn
  obtain ⟨m1, h⟩ := TLM.simulate_succeeds R m hg
  have hc := TLM.Reachable.coherent R D hm
  have hc' := TLM.Reachable.coherent R D hm'
  have e1 : m'.core.deltaTMag = m.core.deltaTMag := by
    rw [hc.core.dtMag, hc'.core.dtMag]; exact hp'.dt.magIn.trans hp.dt.magIn.symm
  have e2 : m'.lambda0Mag = m.lambda0Mag := by
    rw [hc.lambda0Mag, hc'.lambda0Mag]; exact hp'.lambda0.magIn.trans hp.lambda0.magIn.symm
  have e3 : m'.aMag = -m.aMag := by
    rw [hc.aMag, hc'.aMag]
    refine hp'.a.magIn.trans ?_
    have := hp.a.magIn
    show _ = -(m.a.magIn R R.wm2cc)
    rw [this]; rfl
  have e4 : m'.efficacyMag = m.efficacyMag := by
    rw [hc.efficacyMag, hc'.efficacyMag]; exact hp'.efficacy.magIn.trans hp.efficacy.magIn.symm
  have e5 : m'.etaMag = m.etaMag := by rw [hc.etaMag, hc'.etaMag]; exact hp'.eta.magIn.trans hp.eta.magIn.symm
  have e6 : m'.hcuMag = m.hcuMag := by rw [hc.hcuMag, hc'.hcuMag]; exact hp'.C.magIn.trans hp.C.magIn.symm
  have e7 : m'.hclMag = m.hclMag := by rw [hc.hclMag, hc'.hclMag]; exact hp'.D.magIn.trans hp.D.magIn.symm
  have hf := TLM.simulate_fills hg h
  have hf' := hf.neg hr (e' := m'.eng)
    (by
      intro a b f x hx
      simp only [TLM.eng, Except.ok.injEq, e1, e2, e3, e4, e5, e6] at hx ⊢
      rw [← hx, TLM.neg_upper hr])
    (by
      intro a b f x hx
      simp only [TLM.eng, Except.ok.injEq, e1, e5, e7] at hx ⊢
      rw [← hx, TLM.neg_lower hr])
    (by
      intro a b a' b' f x hx
      simp only [TLM.eng, Except.ok.injEq, e1, e6, e7] at hx ⊢
      rw [← hx, TLM.neg_rndt hr])
  rw [hmF, fseries_neg, ← hmF'] at hf'
  obtain ⟨m2, hs, h1, h2, h3⟩ := TLM.simulate_of_fills hg' hf'
  refine ⟨m1, m2, h, hs, ?_⟩
  simp only [TLM.outputs, negated, h1, h2, h3, List.map_cons, List.map_nil]

/-- **C110** (delay, two-layer model).  `k` steps without forcing before everything else delay the reported series by `k`
steps and change no bit of them. -/
theorem C110_delay_two_layer (D : R.Dimensional) (hz : r.fl 0 = 0) {m : TLM N (FR r)} (hm : TLM.Reachable R m) {p : TLPar}
    (hp : m.FPhys R p) (hok : p.Ok) {d d' : DArg N (FR r)} {n k : ℕ} (hn : n ≠ 0) {F F' : ℕ → ℝ} (hd : IsFForcing R d n F)
    (hd' : IsFForcing R d' (k + n) F') (h0 : ∀ i < k, F' i = 0) (hs : ∀ i < n, F' (k + i) = F i) :
    ∃ T TD U, TLM.FProduces R m d n T TD U ∧
      TLM.FProduces R m d' (k + n) (delayed k T) (delayed k TD) (delayed k U) := by
  have hc := TLM.Reachable.coherent R D hm
  have hrun := TLM.fproduces hz hc hp hok hn hd
  refine ⟨_, _, _, hrun, TLM.fproduces_of_fills (by omega) hd' ?_⟩
  have e1 : m.core.deltaTMag = FR.fin p.dt := by rw [hc.core.dtMag]; exact hp.dt.magIn
  have e2 : m.lambda0Mag = FR.fin p.l := by rw [hc.lambda0Mag]; exact hp.lambda0.magIn
  have e3 : m.aMag = FR.fin p.a := by rw [hc.aMag]; exact hp.a.magIn
  have e4 : m.efficacyMag = FR.fin p.e := by rw [hc.efficacyMag]; exact hp.efficacy.magIn
  have e5 : m.etaMag = FR.fin p.h := by rw [hc.etaMag]; exact hp.eta.magIn
  have e6 : m.hcuMag = FR.fin p.C := by rw [hc.hcuMag]; exact hp.C.magIn
  have e7 : m.hclMag = FR.fin p.D := by rw [hc.hclMag]; exact hp.D.magIn
  refine Eng.fills_delay hz ?_ ?_ ?_ h0 hs (hrun.fills hn hd)
  · simp [TLM.eng, TLM.calcNextTempUpper, e1, e2, e3, e4, e5, e6, FR.fin_div hok.C, hz]
  · simp [TLM.eng, TLM.calcNextTempLower, e1, e5, e7, FR.fin_div hok.D, hz]
  · simp [TLM.eng, TLM.calcNextRndt, e1, e6, e7, FR.fin_div hok.dt, hz]

/-- **C110** (delay, impulse response model).  The same, if the undelayed run makes at least one step and reports numbers. -/
theorem C110_delay_impulse_response (hz : r.fl 0 = 0) {m : IRM N (FR r)} (hm : IRM.Reachable R m) {p : IRPar}
    (hp : m.FPhys R p) (h1 : p.d1 ≠ 0) (h2 : p.d2 ≠ 0) {d d' : DArg N (FR r)} {n k : ℕ} (hn : 2 ≤ n) {F F' : ℕ → ℝ}
    (hd : IsFForcing R d n F) (hd' : IsFForcing R d' (k + n) F') (h0 : ∀ i < k, F' i = 0) (hs : ∀ i < n, F' (k + i) = F i)
    {T1 T2 T U : ℕ → ℝ} (hrun : IRM.FProduces R m d n T1 T2 T (fseries n U)) :
    IRM.FProduces R m d' (k + n) (delayed k T1) (delayed k T2) (delayed k T) (fseries (k + n) (delayed k U)) := by
  have hc := IRM.Reachable.coherent R hm
  obtain ⟨hf, hT⟩ := hrun.fills (by omega) hd
  have e1 : m.core.deltaTMag = FR.fin p.dt := by rw [hc.core.dtMag]; exact hp.dt.magIn
  have e2 : m.q1Mag = FR.fin p.q1 := by rw [hc.q1Mag]; exact hp.q1.magIn
  have e3 : m.q2Mag = FR.fin p.q2 := by rw [hc.q2Mag]; exact hp.q2.magIn
  have e4 : m.d1Mag = FR.fin p.d1 := by rw [hc.d1Mag]; exact hp.d1.magIn
  have e5 : m.d2Mag = FR.fin p.d2 := by rw [hc.d2Mag]; exact hp.d2.magIn
  refine IRM.fproduces_of_fills (by omega) hd' (Eng.fills_delay hz ?_ ?_ ?_ h0 hs hf) ?_
  · simp [IRM.eng, e1, e2, e4, fcalcNextTemp hz h1, fbox, hz]
  · simp [IRM.eng, e1, e3, e5, fcalcNextTemp hz h2, fbox, hz]
  · have hseq := Eng.fills_fseries.mp hf
    have s0 := hseq 0 (by omega)
    have s1 := hseq 1 (by omega)
    rw [Eng.seq, s0] at s1
    rw [Eng.seq] at s0
    simp only [FR.dec_eq, Nat.cast_zero, zero_div, hz, Except.ok.injEq, Prod.mk.injEq] at s0
    obtain ⟨a0, b0, -⟩ := s0
    rw [← a0, ← b0] at s1
    simp only [fseries_getAt (show 0 < n by omega)] at s1
    simp only [IRM.eng, e1, e2, e3, e4, e5, fcalcNextTemp hz h1, fcalcNextTemp hz h2] at s1
    show m.calcNextRndt R (FR.fin 0) (FR.fin 0) (FR.fin 0) m.efficacyMag = _
    cases hN : m.calcNextRndt R (FR.fin 0) (FR.fin 0) (FR.fin (F 0)) m.efficacyMag with
    | error x => simp only [hN] at s1; cases s1
    | ok c =>
      simp only [hN, Except.ok.injEq, Prod.mk.injEq] at s1
      rw [s1.2.2] at hN
      exact IRM.rndt_rest hz hN
  · intro i hi
    unfold delayed
    split
    · rw [add_zero, hz]
    · exact hT (i - k) (by omega)

/-! ## Order -/

theorem fbox_mono (hr : r.Ordered) {q q' d dt F F' t t' : ℝ} (hd : 0 < d) (hdt : 0 ≤ dt) (hF : F * q ≤ F' * q') (ht : t ≤ t') :
    fbox r q d dt F t ≤ fbox r q' d dt F' t' := by
  have hx : r.fl (-dt / d) ≤ 0 := by
    rw [← hr.zero]
    exact hr.mono _ _ (by rw [neg_div]; have := div_nonneg hdt hd.le; linarith)
  obtain ⟨k0, k1⟩ := hr.exp _ hx
  have hk : 0 ≤ r.fl (r.fl 1 - r.exp (r.fl (-dt / d))) := by
    rw [← hr.zero, hr.one]
    exact hr.mono _ _ (by linarith)
  unfold fbox
  refine hr.mono _ _ (add_le_add (hr.mono _ _ ?_) (hr.mono _ _ ?_))
  · exact mul_le_mul_of_nonneg_right ht k0
  · exact mul_le_mul_of_nonneg_right (hr.mono _ _ hF) hk

theorem fboxes_mono (hr : r.Ordered) {q q' d dt : ℝ} (hd : 0 < d) (hdt : 0 ≤ dt) {F F' : ℕ → ℝ} {n : ℕ}
    (hF : ∀ i < n, F i * q ≤ F' i * q') : ∀ i < n, fboxes r q d dt F i ≤ fboxes r q' d dt F' i := by
  intro i
  induction i with
  | zero => intro _; exact le_rfl
  | succ i ih => intro hi; exact fbox_mono hr hd hdt (hF i (by omega)) (ih (by omega))

theorem fboxes_nonneg (hr : r.Ordered) {q d dt : ℝ} (hd : 0 < d) (hdt : 0 ≤ dt) {F : ℕ → ℝ} {n : ℕ}
    (hF : ∀ i < n, 0 ≤ F i * q) : ∀ i < n, 0 ≤ fboxes r q d dt F i := by
  intro i hi
  have h0 : fboxes r q d dt (fun _ => 0) i = 0 := by
    clear hi
    induction i with
    | zero => rfl
    | succ i ih => simp [fboxes, fbox, ih, hr.zero]
  rw [← h0]
  exact fboxes_mono hr hd hdt (fun j hj => by rw [zero_mul]; exact hF j hj) i hi

/-- what a run reports: the rounded boxes -/
theorem IRM.FProduces.boxes (hz : r.fl 0 = 0) {m : IRM N (FR r)} (hm : IRM.Reachable R m) {p : IRPar} (hp : m.FPhys R p)
    (h1 : p.d1 ≠ 0) (h2 : p.d2 ≠ 0) {d : DArg N (FR r)} {n : ℕ} (hn : n ≠ 0) {F : ℕ → ℝ} (hd : IsFForcing R d n F)
    {T1 T2 T : ℕ → ℝ} {us : List (FR r)} (h : IRM.FProduces R m d n T1 T2 T us) : ∀ i < n,
      T1 i = fboxes r p.q1 p.d1 p.dt F i ∧ T2 i = fboxes r p.q2 p.d2 p.dt F i ∧ T i = r.fl (T1 i + T2 i) := by
  obtain ⟨hf, hT⟩ := h.fills hn hd
  intro i hi
  obtain ⟨a, b, c, s0, s1, s2, -⟩ := hf.2.2.2 i (by rw [fseries_length]; exact hi)
  rw [fseries_getElem? _ _ _ hi] at s1 s2
  obtain ⟨rfl, rfl⟩ := IRM.fseq hz (IRM.Reachable.coherent R hm) hp h1 h2 n F i hi s0
  injection s1 with s1
  injection s2 with s2
  injection s1 with s1
  injection s2 with s2
  exact ⟨s1, s2, hT i hi⟩

/-- **C111** (stronger forcing, more sensitive boxes).  Two impulse response objects with the same timescales and time step;
the second one's boxes are at least as sensitive, and it is driven by non-negative forcings that are nowhere smaller: every
reported temperature of the second is at least that of the first, as floating-point numbers.  For equal sensitivities the
forcings need not be non-negative. -/
theorem C111_stronger (hr : r.Ordered) {m m' : IRM N (FR r)} (hm : IRM.Reachable R m) (hm' : IRM.Reachable R m') {p p' : IRPar}
    (hp : m.FPhys R p) (hp' : m'.FPhys R p') (hd1 : p'.d1 = p.d1) (hd2 : p'.d2 = p.d2) (hdt : p'.dt = p.dt) (h1 : 0 < p.d1)
    (h2 : 0 < p.d2) (h3 : 0 ≤ p.dt) (hq1 : 0 ≤ p.q1) (hq2 : 0 ≤ p.q2) {d d' : DArg N (FR r)} {n : ℕ} (hn : n ≠ 0)
    {F F' : ℕ → ℝ} (hd : IsFForcing R d n F) (hd' : IsFForcing R d' n F') (hF : ∀ i < n, F i ≤ F' i)
    (hq : (p'.q1 = p.q1 ∧ p'.q2 = p.q2) ∨ (p.q1 ≤ p'.q1 ∧ p.q2 ≤ p'.q2 ∧ ∀ i < n, 0 ≤ F' i)) {T1 T2 T T1' T2' T' : ℕ → ℝ}
    {us us' : List (FR r)} (hrun : IRM.FProduces R m d n T1 T2 T us) (hrun' : IRM.FProduces R m' d' n T1' T2' T' us') :
    ∀ i < n, T1 i ≤ T1' i ∧ T2 i ≤ T2' i ∧ T i ≤ T' i := by
  intro i hi
  obtain ⟨a1, a2, a3⟩ := hrun.boxes hr.zero hm hp h1.ne' h2.ne' hn hd i hi
  obtain ⟨b1, b2, b3⟩ := hrun'.boxes hr.zero hm' hp' (by rw [hd1]; exact h1.ne') (by rw [hd2]; exact h2.ne') hn hd' i hi
  have key : ∀ q q' : ℝ, 0 ≤ q → (q' = q ∨ (q ≤ q' ∧ ∀ i < n, 0 ≤ F' i)) → ∀ i < n, F i * q ≤ F' i * q' := by
    intro q q' h0 h i hi
    rcases h with rfl | ⟨h, hF'⟩
    · exact mul_le_mul_of_nonneg_right (hF i hi) h0
    · exact (mul_le_mul_of_nonneg_right (hF i hi) h0).trans (mul_le_mul_of_nonneg_left h (hF' i hi))
  have t1 : T1 i ≤ T1' i := by
    rw [a1, b1, hd1, hdt]
    exact fboxes_mono hr h1 h3 (key _ _ hq1 (hq.imp And.left fun h => ⟨h.1, h.2.2⟩)) i hi
  have t2 : T2 i ≤ T2' i := by
    rw [a2, b2, hd2, hdt]
    exact fboxes_mono hr h2 h3 (key _ _ hq2 (hq.imp And.right fun h => ⟨h.2.1, h.2.2⟩)) i hi
  exact ⟨t1, t2, by rw [a3, b3]; exact hr.mono _ _ (add_le_add t1 t2)⟩

/-- **C111** (warming).  Under forcing that is never negative no reported temperature is negative; as long as the forcing
does not decrease either, no reported temperature decreases, not even by rounding. -/
theorem C111_warming (hr : r.Ordered) {m : IRM N (FR r)} (hm : IRM.Reachable R m) {p : IRPar} (hp : m.FPhys R p) (h1 : 0 < p.d1)
    (h2 : 0 < p.d2) (h3 : 0 ≤ p.dt) (hq1 : 0 ≤ p.q1) (hq2 : 0 ≤ p.q2) {d : DArg N (FR r)} {n : ℕ} (hn : n ≠ 0) {F : ℕ → ℝ}
    (hd : IsFForcing R d n F) (hF : ∀ i < n, 0 ≤ F i) {T1 T2 T : ℕ → ℝ} {us : List (FR r)}
    (hrun : IRM.FProduces R m d n T1 T2 T us) :
    (∀ i < n, 0 ≤ T1 i ∧ 0 ≤ T2 i ∧ 0 ≤ T i) ∧
    ∀ k, k + 1 < n → (∀ i < k, F i ≤ F (i + 1)) → T1 k ≤ T1 (k + 1) ∧ T2 k ≤ T2 (k + 1) ∧ T k ≤ T (k + 1) := by
  have hb := hrun.boxes hr.zero hm hp h1.ne' h2.ne' hn hd
  constructor
  · intro i hi
    obtain ⟨a1, a2, a3⟩ := hb i hi
    have t1 : 0 ≤ T1 i := by rw [a1]; exact fboxes_nonneg hr h1 h3 (fun i hi => mul_nonneg (hF i hi) hq1) i hi
    have t2 : 0 ≤ T2 i := by rw [a2]; exact fboxes_nonneg hr h2 h3 (fun i hi => mul_nonneg (hF i hi) hq2) i hi
    refine ⟨t1, t2, ?_⟩
    rw [a3, ← hr.zero]
    exact hr.mono _ _ (add_nonneg t1 t2)
  · have key : ∀ q d : ℝ, 0 ≤ q → 0 < d → ∀ k, k + 1 < n → (∀ i < k, F i ≤ F (i + 1)) →
        fboxes r q d p.dt F k ≤ fboxes r q d p.dt F (k + 1) := by
      intro q d hq hd' k
      induction k with
      | zero =>
        intro hk _
        exact fboxes_nonneg hr hd' h3 (fun i hi => mul_nonneg (hF i hi) hq) 1 hk
      | succ k ih =>
        intro hk hi
        exact fbox_mono hr hd' h3 (mul_le_mul_of_nonneg_right (hi k (by omega)) hq)
          (ih (by omega) fun i h => hi i (by omega))
    intro k hk hi
    obtain ⟨a1, a2, a3⟩ := hb k (by omega)
    obtain ⟨b1, b2, b3⟩ := hb (k + 1) hk
    have t1 : T1 k ≤ T1 (k + 1) := by rw [a1, b1]; exact key _ _ hq1 h1 k hk hi
    have t2 : T2 k ≤ T2 (k + 1) := by rw [a2, b2]; exact key _ _ hq2 h2 k hk hi
    exact ⟨t1, t2, by rw [a3, b3]; exact hr.mono _ _ (add_le_add t1 t2)⟩

/-- a box without forcing does not warm -/
theorem fbox_decay (hr : r.Ordered) {q d dt t : ℝ} (hd : 0 < d) (hdt : 0 ≤ dt) (ht : 0 ≤ t) (hi : r.fl t = t) :
    fbox r q d dt 0 t ≤ t := by
  have hx : r.fl (-dt / d) ≤ 0 := by
    rw [← hr.zero]
    exact hr.mono _ _ (by rw [neg_div]; have := div_nonneg hdt hd.le; linarith)
  obtain ⟨-, k1⟩ := hr.exp _ hx
  unfold fbox
  rw [zero_mul, hr.zero, zero_mul, hr.zero, add_zero, hr.idem]
  calc r.fl (t * r.exp (r.fl (-dt / d))) ≤ r.fl t := hr.mono _ _ (by nlinarith)
    _ = t := hi

/-- **C111** (cooling).  Once there is no forcing any more, a world that has been warmed cools: no reported temperature
increases, not even by rounding. -/
theorem C111_cooling (hr : r.Ordered) {m : IRM N (FR r)} (hm : IRM.Reachable R m) {p : IRPar} (hp : m.FPhys R p) (h1 : 0 < p.d1)
    (h2 : 0 < p.d2) (h3 : 0 ≤ p.dt) (hq1 : 0 ≤ p.q1) (hq2 : 0 ≤ p.q2) {d : DArg N (FR r)} {n : ℕ} (hn : n ≠ 0) {F : ℕ → ℝ}
    (hd : IsFForcing R d n F) (hF : ∀ i < n, 0 ≤ F i) {T1 T2 T : ℕ → ℝ} {us : List (FR r)}
    (hrun : IRM.FProduces R m d n T1 T2 T us) {k : ℕ} (hk : k + 1 < n) (h0 : F k = 0) :
    T1 (k + 1) ≤ T1 k ∧ T2 (k + 1) ≤ T2 k ∧ T (k + 1) ≤ T k := by
  have hb := hrun.boxes hr.zero hm hp h1.ne' h2.ne' hn hd
  have hfix : ∀ q d i, r.fl (fboxes r q d p.dt F i) = fboxes r q d p.dt F i := by
    intro q d i
    cases i with
    | zero => exact hr.zero
    | succ i => simp only [fboxes, fbox]; exact hr.idem _
  have key : ∀ q d : ℝ, 0 ≤ q → 0 < d → fboxes r q d p.dt F (k + 1) ≤ fboxes r q d p.dt F k := by
    intro q d hq hd'
    rw [fboxes, h0]
    exact fbox_decay hr hd' h3 (fboxes_nonneg hr hd' h3 (fun i hi => mul_nonneg (hF i hi) hq) k (by omega)) (hfix _ _ _)
  obtain ⟨a1, a2, a3⟩ := hb k (by omega)
  obtain ⟨b1, b2, b3⟩ := hb (k + 1) hk
  have t1 : T1 (k + 1) ≤ T1 k := by rw [a1, b1]; exact key _ _ hq1 h1
  have t2 : T2 (k + 1) ≤ T2 k := by rw [a2, b2]; exact key _ _ hq2 h2
  exact ⟨t1, t2, by rw [a3, b3]; exact hr.mono _ _ (add_le_add t1 t2)⟩

/-! ## Concrete cases, in double precision -/

/-- any sequence of numbers can be given as drivers in W/m² -/
theorem isFForcing_wm2 (n : ℕ) (F : ℕ → ℝ) : IsFForcing R (.qty ⟨1, fseries n F⟩ R.wm2) n F := by
  refine ⟨_, _, rfl, fseries_length _ _, fun i hi => ?_⟩
  have : (fseries n F : List (FR r))[i] = FR.fin (F i) := by simp [fseries]
  rw [this]
  exact ⟨by simp [IsFNum, Qty.toUnit, Qty.magIn], rfl⟩

/-- `ImpulseResponseModel()` and `TwoLayerModel(a=0.05)`, `TwoLayerModel(a=-0.05)`: the hypotheses of the symmetry
theorems hold for a thousand steps of 1, 2, 3, … hundredths of a W/m². -/
example : double.Odd ∧ (∃ m m1, IRM.simulate U0.regD (.qty ⟨1, fseries 1000 fun i => i / 100⟩ U0.regD.wm2) m = (m1, .ok ()) ∧
      IRM.Reachable U0.regD m ∧
      IsFForcing U0.regD (.qty ⟨1, fseries 1000 fun i => i / 100⟩ U0.regD.wm2) 1000 (fun i => i / 100) ∧
      IsFForcing U0.regD (.qty ⟨1, fseries 1000 fun i => -(i / 100)⟩ U0.regD.wm2) 1000 (fun i => -(i / 100))) ∧
    ∃ m m' : TLM U0 (FR double), TLM.Reachable U0.regD m ∧ TLM.Reachable U0.regD m' ∧ m.FPhys U0.regD (TLPar.defaultA 0.05) ∧
      m'.FPhys U0.regD { TLPar.defaultA 0.05 with a := -(TLPar.defaultA 0.05).a } := by
  refine ⟨double_odd, ?_, ?_⟩
  · obtain ⟨m, h1, -, -⟩ := U0.regD_default_ir
    obtain ⟨-, -, -, -, ⟨m1, hs, -⟩, -⟩ := C67_default_impulse_response h1 (n := 1000) (by norm_num) (isFForcing_wm2 1000 fun i => i / 100)
      (fun i hi => by
        have : (i : ℝ) ≤ 1000 := by exact_mod_cast hi.le
        rw [abs_of_nonneg (by positivity)]; linarith) (IRPar.sol_eq IRPar.defaultD 1 1000 _)
    exact ⟨m, m1, hs, ⟨_, _, [], h1, rfl⟩, isFForcing_wm2 _ _, isFForcing_wm2 _ _⟩
  · obtain ⟨m, h1, h2⟩ := U0.regD_a 0.05
    obtain ⟨m', h1', h2'⟩ := U0.regD_a (-0.05)
    exact ⟨m, m', ⟨_, _, [], h1, rfl⟩, ⟨_, _, [], h1', rfl⟩, h2, h2'⟩

/-- ... and those of the delay theorems, for two hundred years before the thousand. -/
example : (∃ m : TLM U0 (FR double), TLM.Reachable U0.regD m ∧ m.FPhys U0.regD (TLPar.defaultA 0.05) ∧ (TLPar.defaultA 0.05).Ok) ∧
    (∃ m T1 T2 T U, IRM.Reachable U0.regD m ∧ m.FPhys U0.regD IRPar.defaultD ∧ IRPar.defaultD.d1 ≠ 0 ∧ IRPar.defaultD.d2 ≠ 0 ∧
      IRM.FProduces U0.regD m (.qty ⟨1, fseries 1000 fun i => i / 100⟩ U0.regD.wm2) 1000 T1 T2 T (fseries 1000 U)) ∧
    (∀ i < 200, delayed 200 (fun i => i / 100) i = 0) ∧ (∀ i < 1000, delayed 200 (fun i => i / 100) (200 + i) = (i : ℝ) / 100) ∧
    IsFForcing U0.regD (.qty ⟨1, fseries (200 + 1000) (delayed 200 fun i => i / 100)⟩ U0.regD.wm2) (200 + 1000)
      (delayed 200 fun i => i / 100) := by
  refine ⟨?_, ?_, ?_, ?_, isFForcing_wm2 _ _⟩
  · obtain ⟨m, h1, h2⟩ := U0.regD_a 0.05
    exact ⟨m, ⟨_, _, [], h1, rfl⟩, h2, (TLPar.defaultA_pos _).ok⟩
  · obtain ⟨m, h1, h2, -⟩ := U0.regD_default_ir
    obtain ⟨T1, T2, T, U, hs, -⟩ := C67_default_impulse_response h1 (n := 1000) (by norm_num) (isFForcing_wm2 1000 fun i => i / 100)
      (fun i hi => by
        have : (i : ℝ) ≤ 1000 := by exact_mod_cast hi.le
        rw [abs_of_nonneg (by positivity)]; linarith) (IRPar.sol_eq IRPar.defaultD 1 1000 _)
    exact ⟨m, T1, T2, T, U, ⟨_, _, [], h1, rfl⟩, h2, IRPar.defaultD_ok.d1.ne',
      (IRPar.defaultD_ok.d1.trans IRPar.defaultD_ok.d2).ne', hs⟩
  · intro i hi; simp [delayed, hi]
  · intro i _; simp [delayed]

/-- ... and those of the order theorems: a run under forcing that grows for 500 steps and is then switched off. -/
example : double.Ordered ∧ ∃ m T1 T2 T us, IRM.Reachable U0.regD m ∧ m.FPhys U0.regD IRPar.defaultD ∧ 0 < IRPar.defaultD.d1 ∧
    0 < IRPar.defaultD.d2 ∧ 0 ≤ IRPar.defaultD.dt ∧ 0 ≤ IRPar.defaultD.q1 ∧ 0 ≤ IRPar.defaultD.q2 ∧
    IRM.FProduces U0.regD m (.qty ⟨1, fseries 1000 fun i => if i < 500 then (i : ℝ) / 100 else 0⟩ U0.regD.wm2) 1000 T1 T2 T us ∧
    (∀ i : ℕ, i < 1000 → (0 : ℝ) ≤ if i < 500 then (i : ℝ) / 100 else 0) ∧
    (∀ i : ℕ, i < 499 → (if i < 500 then (i : ℝ) / 100 else 0) ≤ if i + 1 < 500 then ((i + 1 : ℕ) : ℝ) / 100 else 0) ∧
    (if 700 < 500 then ((700 : ℕ) : ℝ) / 100 else 0) = 0 := by
  obtain ⟨m, h1, h2, -⟩ := U0.regD_default_ir
  have hF : ∀ i : ℕ, (0 : ℝ) ≤ if i < 500 then (i : ℝ) / 100 else 0 := fun i => by split <;> positivity
  obtain ⟨T1, T2, T, U, hs, -⟩ := C67_default_impulse_response h1 (n := 1000) (by norm_num)
    (isFForcing_wm2 1000 fun i => if i < 500 then (i : ℝ) / 100 else 0)
    (fun i hi => by
      rw [abs_of_nonneg (hF i)]
      split
      · have : (i : ℝ) ≤ 1000 := by exact_mod_cast hi.le
        linarith
      · norm_num) (IRPar.sol_eq IRPar.defaultD 1 1000 _)
  obtain ⟨⟨a1, -⟩, ⟨b1, -⟩, ⟨c1, -⟩⟩ := IRPar.defaultD_bounds
  refine ⟨double_ordered, m, T1, T2, T, _, ⟨_, _, [], h1, rfl⟩, h2, IRPar.defaultD_ok.d1,
    IRPar.defaultD_ok.d1.trans IRPar.defaultD_ok.d2, le_trans (by norm_num) c1, le_trans (by norm_num) a1, le_trans (by norm_num) b1, hs,
    fun i _ => hF i, fun i hi => ?_, by norm_num⟩
  rw [if_pos (by omega), if_pos (by omega)]
  push_cast
  linarith

end TwoLayer
