import Verif.Proofs.Missing
import Verif.Props.Scenarios
import Verif.Props.TwoLayer
import Verif.Props.ImpulseResponse

/-!
# C53 and C60: missing values, and what `run_scenarios` returns as numbers
-/

set_option linter.unusedSimpArgs false
set_option linter.unusedSectionVars false

namespace TwoLayer
open Cal

/-! ## C53 -/
section
variable {N α : Type} [Fintype N] [DecidableEq N] [Arith α] [DecidableEq α] {R : Registry N α}

/-- Where a driver is missing, every series returned for it is NaN (or the time is not in the result at all). -/
theorem C53_missing_two_layer (D : R.Dimensional) {m m' : TLM N α} (hm : TLM.Reachable R m) {dv : String}
    {scen out : ScmRun α} (hrun : runScenarios (TLM.variant R) R dv scen m = (m', .ok out)) (ht : scen.times.Nodup)
    {sel : List (Row α)} (hsel : Selection dv scen.rows sel) {i : Nat} {r : Row α} (hi : sel[i]? = some r) {t : Int} {d : α}
    (hd : HasValue scen.times r.vals t d) (hn : Arith.isNaN d = true) {k : Nat} (hk : k < 4) {row : Row α}
    (hrow : out.rows[4 * i + k]? = some row) {x : α} (hx : HasValue out.times row.vals t x) : x = Arith.nan := by
  obtain ⟨ts, m₁, -, -, -, hr⟩ := TLM.runs_by_hand D hm hrun hsel
  obtain ⟨us, u, m₂, -, -, -, h0, h1, h2, h3⟩ := hr i r hi
  have fin : ∀ {v un : Option (MVal α)} {xs : List α} {n : Nat}, n = 4 * i + k →
      ReturnedRow R "two_layer" m.pub.params scen out i r n v un xs → x = Arith.nan := by
    rintro v un xs n rfl ⟨row', g1, -, g3⟩
    rw [hrow] at g1; cases g1
    exact g3.missing ht hd hn hx
  rcases (by omega : k = 0 ∨ k = 1 ∨ k = 2 ∨ k = 3) with rfl | rfl | rfl | rfl
  · exact fin rfl h0
  · exact fin rfl h1
  · exact fin rfl h2
  · exact fin rfl h3

/-- The same for the impulse response model. -/
theorem C53_missing_impulse_response (D : R.Dimensional) {m m' : IRM N α} (hm : IRM.Reachable R m) {dv : String}
    {scen out : ScmRun α} (hrun : runScenarios (IRM.variant R) R dv scen m = (m', .ok out)) (ht : scen.times.Nodup)
    {sel : List (Row α)} (hsel : Selection dv scen.rows sel) {i : Nat} {r : Row α} (hi : sel[i]? = some r) {t : Int} {d : α}
    (hd : HasValue scen.times r.vals t d) (hn : Arith.isNaN d = true) {k : Nat} (hk : k < 5) {row : Row α}
    (hrow : out.rows[5 * i + k]? = some row) {x : α} (hx : HasValue out.times row.vals t x) : x = Arith.nan := by
  obtain ⟨ts, m₁, -, -, -, hr⟩ := IRM.runs_by_hand D hm hrun hsel
  obtain ⟨us, u, m₂, -, -, -, h0, h1, h2, h3, h4⟩ := hr i r hi
  have fin : ∀ {v un : Option (MVal α)} {xs : List α} {n : Nat}, n = 5 * i + k →
      ReturnedRow R "two_timescale_impulse_response" m.pub.params scen out i r n v un xs → x = Arith.nan := by
    rintro v un xs n rfl ⟨row', g1, -, g3⟩
    rw [hrow] at g1; cases g1
    exact g3.missing ht hd hn hx
  rcases (by omega : k = 0 ∨ k = 1 ∨ k = 2 ∨ k = 3 ∨ k = 4) with rfl | rfl | rfl | rfl | rfl
  · exact fin rfl h0
  · exact fin rfl h1
  · exact fin rfl h2
  · exact fin rfl h3
  · exact fin rfl h4

/-- The driver comes back with exactly its non-missing values at their times. -/
theorem C53_driver_two_layer (hnan : Arith.isNaN (Arith.nan : α) = true) (D : R.Dimensional) {m m' : TLM N α}
    (hm : TLM.Reachable R m) {dv : String} {scen out : ScmRun α}
    (hrun : runScenarios (TLM.variant R) R dv scen m = (m', .ok out)) {sel : List (Row α)}
    (hsel : Selection dv scen.rows sel) {i : Nat} {r : Row α} (hi : sel[i]? = some r) :
    ∃ row, out.rows[4 * i]? = some row ∧
      ∀ t x, Arith.isNaN x = false → (HasValue out.times row.vals t x ↔ HasValue scen.times r.vals t x) := by
  obtain ⟨ts, m₁, -, -, -, hr⟩ := TLM.runs_by_hand D hm hrun hsel
  obtain ⟨us, u, m₂, -, -, -, ⟨row, g1, -, g3⟩, -⟩ := hr i r hi
  exact ⟨row, g1, fun t x hx => g3.driver hnan hx⟩

/-- The same for the impulse response model. -/
theorem C53_driver_impulse_response (hnan : Arith.isNaN (Arith.nan : α) = true) (D : R.Dimensional) {m m' : IRM N α}
    (hm : IRM.Reachable R m) {dv : String} {scen out : ScmRun α}
    (hrun : runScenarios (IRM.variant R) R dv scen m = (m', .ok out)) {sel : List (Row α)}
    (hsel : Selection dv scen.rows sel) {i : Nat} {r : Row α} (hi : sel[i]? = some r) :
    ∃ row, out.rows[5 * i]? = some row ∧
      ∀ t x, Arith.isNaN x = false → (HasValue out.times row.vals t x ↔ HasValue scen.times r.vals t x) := by
  obtain ⟨ts, m₁, -, -, -, hr⟩ := IRM.runs_by_hand D hm hrun hsel
  obtain ⟨us, u, m₂, -, -, -, ⟨row, g1, -, g3⟩, -⟩ := hr i r hi
  exact ⟨row, g1, fun t x hx => g3.driver hnan hx⟩

/-- Part of the property: if only leading and trailing values of a driver are missing, step `k` of its run is reported
at the `k`-th point of the axis after the first value, so consecutive steps are consecutive points of the axis.
Missing from the full property: drivers with gaps, for which it is false (`C53_counterexample`). -/
theorem C53_partial (D : R.Dimensional) {m m' : TLM N α} (hm : TLM.Reachable R m) {dv : String}
    {scen out : ScmRun α} (hrun : runScenarios (TLM.variant R) R dv scen m = (m', .ok out)) {sel : List (Row α)}
    (hsel : Selection dv scen.rows sel) {i : Nat} {r : Row α} (hi : sel[i]? = some r) {a n : Nat}
    (hpres : PresentOn r.vals a n) :
    ∃ dt m₁ us u m₂ rT rD rU, AxisStep R scen.times dt ∧ TLM.setDeltaT R (.qty dt) m = (m₁, .ok ()) ∧
      r.info.get "unit" = some (.str us) ∧ R.parse us = some u ∧
      TLM.simulate R (.qty ⟨1, (r.vals.drop a).take n⟩ u) m₁ = (m₂, .ok ()) ∧
      out.rows[4 * i + 1]? = some rT ∧ out.rows[4 * i + 2]? = some rD ∧ out.rows[4 * i + 3]? = some rU ∧
      ∀ (k : Nat) (t : Int), k < n → scen.times[a + k]? = some t → ∃ x y z,
        m₂.tu[k]? = some x ∧ m₂.tl[k]? = some y ∧ m₂.rndt[k]? = some z ∧
        HasValue out.times rT.vals t x ∧ HasValue out.times rD.vals t y ∧ HasValue out.times rU.vals t z := by
  obtain ⟨ts, m₁, h1, h2, -, hr⟩ := TLM.runs_by_hand D hm hrun hsel
  obtain ⟨us, u, m₂, g1, g2, g3, -, ⟨rT, a1, -, a2⟩, ⟨rD, b1, -, b2⟩, ⟨rU, c1, -, c2⟩⟩ := hr i r hi
  refine ⟨ts.qty R, m₁, us, u, m₂, rT, rD, rU, (axisStep_iff _ _).mpr ⟨ts, h1, rfl⟩, h2, g1, g2, by rw [← hpres.present]; exact g3, a1, b1, c1, ?_⟩
  intro k t hk ht
  have l1 : k < m₂.tu.length := by rw [a2.count, hpres.length]; exact hk
  have l2 : k < m₂.tl.length := by rw [b2.count, hpres.length]; exact hk
  have l3 : k < m₂.rndt.length := by rw [c2.count, hpres.length]; exact hk
  exact ⟨_, _, _, List.getElem?_eq_getElem l1, List.getElem?_eq_getElem l2, List.getElem?_eq_getElem l3,
    a2.consecutive hpres hk ht (List.getElem?_eq_getElem l1), b2.consecutive hpres hk ht (List.getElem?_eq_getElem l2),
    c2.consecutive hpres hk ht (List.getElem?_eq_getElem l3)⟩

/-- The same for the impulse response model. -/
theorem C53_impulse_response_partial (D : R.Dimensional) {m m' : IRM N α} (hm : IRM.Reachable R m) {dv : String}
    {scen out : ScmRun α} (hrun : runScenarios (IRM.variant R) R dv scen m = (m', .ok out)) {sel : List (Row α)}
    (hsel : Selection dv scen.rows sel) {i : Nat} {r : Row α} (hi : sel[i]? = some r) {a n : Nat}
    (hpres : PresentOn r.vals a n) :
    ∃ dt m₁ us u m₂ r1 r2 rU, AxisStep R scen.times dt ∧ IRM.setDeltaT R (.qty dt) m = (m₁, .ok ()) ∧
      r.info.get "unit" = some (.str us) ∧ R.parse us = some u ∧
      IRM.simulate R (.qty ⟨1, (r.vals.drop a).take n⟩ u) m₁ = (m₂, .ok ()) ∧
      out.rows[5 * i + 1]? = some r1 ∧ out.rows[5 * i + 2]? = some r2 ∧ out.rows[5 * i + 4]? = some rU ∧
      ∀ (k : Nat) (t : Int), k < n → scen.times[a + k]? = some t → ∃ x y z,
        m₂.t1[k]? = some x ∧ m₂.t2[k]? = some y ∧ m₂.rndt[k]? = some z ∧
        HasValue out.times r1.vals t x ∧ HasValue out.times r2.vals t y ∧ HasValue out.times rU.vals t z := by
  obtain ⟨ts, m₁, h1, h2, -, hr⟩ := IRM.runs_by_hand D hm hrun hsel
  obtain ⟨us, u, m₂, g1, g2, g3, -, ⟨rT, a1, -, a2⟩, ⟨rD, b1, -, b2⟩, -, ⟨rU, c1, -, c2⟩⟩ := hr i r hi
  refine ⟨ts.qty R, m₁, us, u, m₂, rT, rD, rU, (axisStep_iff _ _).mpr ⟨ts, h1, rfl⟩, h2, g1, g2, by rw [← hpres.present]; exact g3, a1, b1, c1, ?_⟩
  intro k t hk ht
  have l1 : k < m₂.t1.length := by rw [a2.count, hpres.length]; exact hk
  have l2 : k < m₂.t2.length := by rw [b2.count, hpres.length]; exact hk
  have l3 : k < m₂.rndt.length := by rw [c2.count, hpres.length]; exact hk
  exact ⟨_, _, _, List.getElem?_eq_getElem l1, List.getElem?_eq_getElem l2, List.getElem?_eq_getElem l3,
    a2.consecutive hpres hk ht (List.getElem?_eq_getElem l1), b2.consecutive hpres hk ht (List.getElem?_eq_getElem l2),
    c2.consecutive hpres hk ht (List.getElem?_eq_getElem l3)⟩

/-- Exactly when time steps and points of the axis correspond, for any pattern of missing values: what is reported at
positions `a < b` of the axis, where the driver has values, are `j`-th and `k`-th values of the run on the driver's
values, at most `b - a` steps apart, and exactly that many steps apart if and only if no value in between is missing. -/
theorem C53_gaps_two_layer (D : R.Dimensional) {m m' : TLM N α} (hm : TLM.Reachable R m) {dv : String}
    {scen out : ScmRun α} (hrun : runScenarios (TLM.variant R) R dv scen m = (m', .ok out)) {sel : List (Row α)}
    (hsel : Selection dv scen.rows sel) {i : Nat} {r : Row α} (hi : sel[i]? = some r) :
    ∃ dt m₁ us u m₂ rT rD rU, AxisStep R scen.times dt ∧ TLM.setDeltaT R (.qty dt) m = (m₁, .ok ()) ∧
      r.info.get "unit" = some (.str us) ∧ R.parse us = some u ∧
      TLM.simulate R (.qty ⟨1, r.vals.filter fun x => !Arith.isNaN x⟩ u) m₁ = (m₂, .ok ()) ∧
      out.rows[4 * i + 1]? = some rT ∧ out.rows[4 * i + 2]? = some rD ∧ out.rows[4 * i + 3]? = some rU ∧
      ∀ (a b : Nat) (ta tb : Int) (va vb : α), a ≤ b → scen.times[a]? = some ta → scen.times[b]? = some tb →
        r.vals[a]? = some va → r.vals[b]? = some vb → Arith.isNaN va = false → Arith.isNaN vb = false →
        ∃ j k x y z x' y' z', m₂.tu[j]? = some x ∧ m₂.tl[j]? = some y ∧ m₂.rndt[j]? = some z ∧
          m₂.tu[k]? = some x' ∧ m₂.tl[k]? = some y' ∧ m₂.rndt[k]? = some z' ∧
          HasValue out.times rT.vals ta x ∧ HasValue out.times rD.vals ta y ∧ HasValue out.times rU.vals ta z ∧
          HasValue out.times rT.vals tb x' ∧ HasValue out.times rD.vals tb y' ∧ HasValue out.times rU.vals tb z' ∧
          j ≤ k ∧ k - j ≤ b - a ∧
          (k - j = b - a ↔ ∀ i d, a < i → i < b → r.vals[i]? = some d → Arith.isNaN d = false) := by
  obtain ⟨ts, m₁, h1, h2, -, hr⟩ := TLM.runs_by_hand D hm hrun hsel
  obtain ⟨us, u, m₂, g1, g2, g3, -, ⟨rT, a1, -, a2⟩, ⟨rD, b1, -, b2⟩, ⟨rU, c1, -, c2⟩⟩ := hr i r hi
  refine ⟨ts.qty R, m₁, us, u, m₂, rT, rD, rU, (axisStep_iff _ _).mpr ⟨ts, h1, rfl⟩, h2, g1, g2, g3, a1, b1, c1, ?_⟩
  intro a b ta tb va vb hab hta htb hva hvb hna hnb
  obtain ⟨x, x1, x2⟩ := a2.here a ta va hta hva hna
  obtain ⟨y, y1, y2⟩ := b2.here a ta va hta hva hna
  obtain ⟨z, z1, z2⟩ := c2.here a ta va hta hva hna
  obtain ⟨x', x1', x2'⟩ := a2.here b tb vb htb hvb hnb
  obtain ⟨y', y1', y2'⟩ := b2.here b tb vb htb hvb hnb
  obtain ⟨z', z1', z2'⟩ := c2.here b tb vb htb hvb hnb
  have hb := (List.getElem?_eq_some_iff.mp hvb).1
  obtain ⟨e1, e2, e3⟩ := presentBefore_gap hab hb.le
  refine ⟨_, _, x, y, z, x', y', z', x1, y1, z1, x1', y1', z1', x2, y2, z2, x2', y2', z2', e1, e2, e3.trans ?_⟩
  refine ⟨fun h i d p q => h i d p.le q, fun h i d p q hd => ?_⟩
  rcases p.eq_or_lt with rfl | p
  · rw [hva] at hd; cases hd; exact hna
  · exact h i d p q hd

/-- The same for the impulse response model. -/
theorem C53_gaps_impulse_response (D : R.Dimensional) {m m' : IRM N α} (hm : IRM.Reachable R m) {dv : String}
    {scen out : ScmRun α} (hrun : runScenarios (IRM.variant R) R dv scen m = (m', .ok out)) {sel : List (Row α)}
    (hsel : Selection dv scen.rows sel) {i : Nat} {r : Row α} (hi : sel[i]? = some r) :
    ∃ dt m₁ us u m₂ r1 r2 rU, AxisStep R scen.times dt ∧ IRM.setDeltaT R (.qty dt) m = (m₁, .ok ()) ∧
      r.info.get "unit" = some (.str us) ∧ R.parse us = some u ∧
      IRM.simulate R (.qty ⟨1, r.vals.filter fun x => !Arith.isNaN x⟩ u) m₁ = (m₂, .ok ()) ∧
      out.rows[5 * i + 1]? = some r1 ∧ out.rows[5 * i + 2]? = some r2 ∧ out.rows[5 * i + 4]? = some rU ∧
      ∀ (a b : Nat) (ta tb : Int) (va vb : α), a ≤ b → scen.times[a]? = some ta → scen.times[b]? = some tb →
        r.vals[a]? = some va → r.vals[b]? = some vb → Arith.isNaN va = false → Arith.isNaN vb = false →
        ∃ j k x y z x' y' z', m₂.t1[j]? = some x ∧ m₂.t2[j]? = some y ∧ m₂.rndt[j]? = some z ∧
          m₂.t1[k]? = some x' ∧ m₂.t2[k]? = some y' ∧ m₂.rndt[k]? = some z' ∧
          HasValue out.times r1.vals ta x ∧ HasValue out.times r2.vals ta y ∧ HasValue out.times rU.vals ta z ∧
          HasValue out.times r1.vals tb x' ∧ HasValue out.times r2.vals tb y' ∧ HasValue out.times rU.vals tb z' ∧
          j ≤ k ∧ k - j ≤ b - a ∧
          (k - j = b - a ↔ ∀ i d, a < i → i < b → r.vals[i]? = some d → Arith.isNaN d = false) := by
  obtain ⟨ts, m₁, h1, h2, -, hr⟩ := IRM.runs_by_hand D hm hrun hsel
  obtain ⟨us, u, m₂, g1, g2, g3, -, ⟨rT, a1, -, a2⟩, ⟨rD, b1, -, b2⟩, -, ⟨rU, c1, -, c2⟩⟩ := hr i r hi
  refine ⟨ts.qty R, m₁, us, u, m₂, rT, rD, rU, (axisStep_iff _ _).mpr ⟨ts, h1, rfl⟩, h2, g1, g2, g3, a1, b1, c1, ?_⟩
  intro a b ta tb va vb hab hta htb hva hvb hna hnb
  obtain ⟨x, x1, x2⟩ := a2.here a ta va hta hva hna
  obtain ⟨y, y1, y2⟩ := b2.here a ta va hta hva hna
  obtain ⟨z, z1, z2⟩ := c2.here a ta va hta hva hna
  obtain ⟨x', x1', x2'⟩ := a2.here b tb vb htb hvb hnb
  obtain ⟨y', y1', y2'⟩ := b2.here b tb vb htb hvb hnb
  obtain ⟨z', z1', z2'⟩ := c2.here b tb vb htb hvb hnb
  have hb := (List.getElem?_eq_some_iff.mp hvb).1
  obtain ⟨e1, e2, e3⟩ := presentBefore_gap hab hb.le
  refine ⟨_, _, x, y, z, x', y', z', x1, y1, z1, x1', y1', z1', x2, y2, z2, x2', y2', z2', e1, e2, e3.trans ?_⟩
  refine ⟨fun h i d p q => h i d p.le q, fun h i d p q hd => ?_⟩
  rcases p.eq_or_lt with rfl | p
  · rw [hva] at hd; cases hd; exact hna
  · exact h i d p q hd

theorem TLM.Reachable.call {m : TLM N α} (h : TLM.Reachable R m) (op : TLM.Op N α) : TLM.Reachable R (TLM.call R op m).1 := by
  obtain ⟨args, m0, hist, h0, rfl⟩ := h
  exact ⟨args, m0, hist ++ [op], h0, by simp [TLM.after]⟩

theorem IRM.Reachable.call {m : IRM N α} (h : IRM.Reachable R m) (op : IRM.Op N α) : IRM.Reachable R (IRM.call R op m).1 := by
  obtain ⟨args, m0, hist, h0, rfl⟩ := h
  exact ⟨args, m0, hist ++ [op], h0, by simp [IRM.after]⟩
end

/-! ## C60 -/

variable {N : Type} [Fintype N] [DecidableEq N] {R : Registry N XR} (L : R.Lawful)
include L

/-- the time step in seconds and in years -/
private theorem step_num {times : List Int} {ts : Timestep} (hts : selectTimestep times = .ok ts) {jan1 : Int → Int}
    (hj : IsJan1 jan1) {dt : ℝ} (hy : YearlyAxis jan1 times → dt = 31557600) (hmo : ¬ YearlyAxis jan1 times → dt = 2629800) :
    IsNum R (ts.qty R) R.s dt ∧ IsNum R (ts.qty R) R.yr (dt / 31557600) := by
  have hqy : Timestep.qty R .yearly = ⟨.fin 1, R.yr⟩ := by simp [Timestep.qty]
  have hqm : Timestep.qty R .monthly = ⟨.fin 1, R.mon⟩ := by simp [Timestep.qty]
  obtain ⟨s1, s2, -⟩ := C51_select hj times
  cases ts with
  | yearly =>
    rw [hy (s1.mp hts), hqy]
    refine ⟨yr_in_s L, ?_⟩
    rw [div_self (by norm_num)]
    exact isNum_self _ _
  | monthly =>
    rw [hmo (s2.mp hts).1, hqm]
    refine ⟨mon_in_s L, ?_⟩
    have := mon_in_yr L
    convert this using 1
    norm_num

/-- the object after `delta_t` was set to the selected time step -/
theorem TLM.setDt_phys {m m₁ : TLM N XR} (hm : TLM.Reachable R m) {p : TLPar} (hp : m.Phys R p) {times : List Int}
    {ts : Timestep} (h1 : selectTimestep times = .ok ts) (h2 : TLM.setDeltaT R (.qty (ts.qty R)) m = (m₁, .ok ()))
    {jan1 : Int → Int} (hj : IsJan1 jan1) {dt : ℝ} (hy : YearlyAxis jan1 times → dt = 31557600)
    (hmo : ¬ YearlyAxis jan1 times → dt = 2629800) : TLM.Reachable R m₁ ∧ m₁.Phys R { p with dt := dt } := by
  have hnum := (step_num L h1 hj hy hmo).1
  have hm1 : m₁ = { m with core := { m.core with deltaT := ts.qty R, deltaTMag := (ts.qty R).magIn R R.s } } := by
    have := TLM.setDeltaT_good hnum.unitOk m
    rw [h2] at this
    exact (Prod.mk.inj this).1
  constructor
  · have := hm.call (.setDeltaT (.qty (ts.qty R)))
    rw [show TLM.call R (.setDeltaT (.qty (ts.qty R))) m = TLM.setDeltaT R (.qty (ts.qty R)) m from rfl, h2] at this
    exact this
  · rw [hm1]
    exact ⟨hp.du, hp.dl, hp.lambda0, hp.a, hp.efficacy, hp.eta, hnum⟩

/-- the same for the impulse response model, in years; units of the parameters are unchanged -/
theorem IRM.setDt_phys {m m₁ : IRM N XR} (hm : IRM.Reachable R m) {p : IRPar} (hp : m.Phys R p) {times : List Int}
    {ts : Timestep} (h1 : selectTimestep times = .ok ts) (h2 : IRM.setDeltaT R (.qty (ts.qty R)) m = (m₁, .ok ()))
    {jan1 : Int → Int} (hj : IsJan1 jan1) {dt : ℝ} (hy : YearlyAxis jan1 times → dt = 1)
    (hmo : ¬ YearlyAxis jan1 times → dt = 1 / 12) :
    IRM.Reachable R m₁ ∧ m₁.Phys R { p with dt := dt } ∧
      m₁ = { m with core := { m.core with deltaT := ts.qty R, deltaTMag := (ts.qty R).magIn R R.yr } } := by
  have hnum : IsNum R (ts.qty R) R.yr dt := by
    have := (step_num L h1 hj (dt := dt * 31557600) (fun h => by rw [hy h]; norm_num)
      (fun h => by rw [hmo h]; norm_num)).2
    rwa [mul_div_assoc, div_self (by norm_num), mul_one] at this
  have hm1 : m₁ = { m with core := { m.core with deltaT := ts.qty R, deltaTMag := (ts.qty R).magIn R R.yr } } := by
    have := IRM.setDeltaT_good hnum.unitOk m
    rw [h2] at this
    exact (Prod.mk.inj this).1
  refine ⟨?_, ?_, hm1⟩
  · have := hm.call (.setDeltaT (.qty (ts.qty R)))
    rw [show IRM.call R (.setDeltaT (.qty (ts.qty R))) m = IRM.setDeltaT R (.qty (ts.qty R)) m from rfl, h2] at this
    exact this
  · rw [hm1]
    exact ⟨hp.q1, hp.q2, hp.d1, hp.d2, hp.efficacy, hnum⟩

private theorem forcing_of {r : Row XR} {a n : Nat} (hpres : PresentOn r.vals a n) {u : Units N} {F : ℕ → ℝ}
    (hF : ∀ k < n, ∃ x, r.vals[a + k]? = some x ∧ IsNum R ⟨x, u⟩ R.wm2 (F k)) :
    IsForcing R (.qty ⟨1, present r.vals⟩ u) n F := by
  refine ⟨_, _, rfl, hpres.length, ?_⟩
  intro k hk
  rw [hpres.length] at hk
  obtain ⟨x, h1, h2⟩ := hF k hk
  rw [← hpres.getElem? hk] at h1
  obtain ⟨_, h3⟩ := List.getElem?_eq_some_iff.mp h1
  rw [h3]; exact h2

omit L in
private theorem series_get {n k : ℕ} (f : ℕ → ℝ) (hk : k < n) : (series n f)[k]? = some (.fin (f k)) := by
  simp [series, hk]

/-- The series `run_scenarios` returns for a driver whose values are `F 0, …, F (n-1)` W/m² (whatever its unit) at `n`
consecutive points of the axis are, at those points, the solution of the two-layer difference equations with the object's
parameters and a step of 31 557 600 s on a yearly axis and 2 629 800 s on a monthly one. -/
theorem C60_two_layer {m m' : TLM N XR} (hm : TLM.Reachable R m) {p : TLPar} (hp : m.Phys R p) (hC : p.C ≠ 0)
    (hD : p.D ≠ 0) {dv : String} {scen out : ScmRun XR}
    (hrun : runScenarios (TLM.variant R) R dv scen m = (m', .ok out)) {sel : List (Row XR)}
    (hsel : Selection dv scen.rows sel) {i : Nat} {r : Row XR} (hi : sel[i]? = some r) {a n : Nat} (hn : n ≠ 0)
    (hpres : PresentOn r.vals a n) {us : String} {u : Units N} (hus : r.info.get "unit" = some (.str us))
    (hu : R.parse us = some u) {F : ℕ → ℝ} (hF : ∀ k < n, ∃ x, r.vals[a + k]? = some x ∧ IsNum R ⟨x, u⟩ R.wm2 (F k))
    {jan1 : Int → Int} (hj : IsJan1 jan1) {dt : ℝ} (hy : YearlyAxis jan1 scen.times → dt = 31557600)
    (hmo : ¬ YearlyAxis jan1 scen.times → dt = 2629800) :
    ∃ (T TD U : ℕ → ℝ) (rT rD rU : Row XR), TLEq { p with dt := dt } n F T TD U ∧
      out.rows[4 * i + 1]? = some rT ∧ out.rows[4 * i + 2]? = some rD ∧ out.rows[4 * i + 3]? = some rU ∧
      ∀ (k : Nat) (t : Int), k < n → scen.times[a + k]? = some t →
        HasValue out.times rT.vals t (.fin (T k)) ∧ HasValue out.times rD.vals t (.fin (TD k)) ∧
        HasValue out.times rU.vals t (.fin (U k)) := by
  obtain ⟨ts, m₁, h1, h2, -, hr⟩ := TLM.runs_by_hand L.toDimensional hm hrun hsel
  obtain ⟨us', u', m₂, g1, g2, g3, -, ⟨rT, a1, -, a2⟩, ⟨rD, b1, -, b2⟩, ⟨rU, c1, -, c2⟩⟩ := hr i r hi
  rw [hus] at g1; cases g1
  rw [hu] at g2; cases g2
  obtain ⟨hreach, hphys⟩ := TLM.setDt_phys L hm hp h1 h2 hj hy hmo
  have hdt : dt ≠ 0 := by
    by_cases hh : YearlyAxis jan1 scen.times
    · rw [hy hh]; norm_num
    · rw [hmo hh]; norm_num
  obtain ⟨T, TD, U, ⟨m₃, k1, k2⟩, k3, -⟩ := C15_two_layer_exists_unique L hreach hphys ⟨hC, hD, hdt⟩ hn
    (forcing_of L hpres hF)
  rw [g3] at k1
  have : m₂ = m₃ := (Prod.mk.inj k1).1
  subst this
  simp only [TLM.outputs, List.cons.injEq, Prod.mk.injEq, true_and, and_true] at k2
  obtain ⟨e1, e2, e3⟩ := k2
  refine ⟨T, TD, U, rT, rD, rU, k3, a1, b1, c1, ?_⟩
  intro k t hk ht
  exact ⟨a2.consecutive hpres hk ht (by rw [e1]; exact series_get _ hk),
    b2.consecutive hpres hk ht (by rw [e2]; exact series_get _ hk),
    c2.consecutive hpres hk ht (by rw [e3]; exact series_get _ hk)⟩

/-- The same for the impulse response model, in years; `κ` is the size of the unit of `q1` in K/(W/m²) (1 for the
model's own unit, see C44). -/
theorem C60_impulse_response {m m' : IRM N XR} (hm : IRM.Reachable R m) {p : IRPar} (hp : m.Phys R p) (hok : p.Boxes) {κ : ℝ}
    (hκ : IsNum R ⟨.fin 1, m.q1.unit⟩ R.cwm2 κ) {dv : String} {scen out : ScmRun XR}
    (hrun : runScenarios (IRM.variant R) R dv scen m = (m', .ok out)) {sel : List (Row XR)}
    (hsel : Selection dv scen.rows sel) {i : Nat} {r : Row XR} (hi : sel[i]? = some r) {a n : Nat} (hn : n ≠ 0)
    (hpres : PresentOn r.vals a n) {us : String} {u : Units N} (hus : r.info.get "unit" = some (.str us))
    (hu : R.parse us = some u) {F : ℕ → ℝ} (hF : ∀ k < n, ∃ x, r.vals[a + k]? = some x ∧ IsNum R ⟨x, u⟩ R.wm2 (F k))
    {jan1 : Int → Int} (hj : IsJan1 jan1) {dt : ℝ} (hy : YearlyAxis jan1 scen.times → dt = 1)
    (hmo : ¬ YearlyAxis jan1 scen.times → dt = 1 / 12) :
    ∃ (T1 T2 U : ℕ → ℝ) (r1 r2 rT rU : Row XR), IREq { p with dt := dt } κ n F T1 T2 U ∧
      out.rows[5 * i + 1]? = some r1 ∧ out.rows[5 * i + 2]? = some r2 ∧ out.rows[5 * i + 3]? = some rT ∧
      out.rows[5 * i + 4]? = some rU ∧
      ∀ (k : Nat) (t : Int), k < n → scen.times[a + k]? = some t →
        HasValue out.times r1.vals t (.fin (T1 k)) ∧ HasValue out.times r2.vals t (.fin (T2 k)) ∧
        HasValue out.times rT.vals t (.fin (T1 k + T2 k)) ∧ HasValue out.times rU.vals t (.fin (U k)) := by
  obtain ⟨ts, m₁, h1, h2, -, hr⟩ := IRM.runs_by_hand L.toDimensional hm hrun hsel
  obtain ⟨us', u', m₂, g1, g2, g3, -, ⟨r1, a1, -, a2⟩, ⟨r2, b1, -, b2⟩, ⟨rT, d1, -, d2⟩, ⟨rU, c1, -, c2⟩⟩ := hr i r hi
  rw [hus] at g1; cases g1
  rw [hu] at g2; cases g2
  obtain ⟨hreach, hphys, hm1⟩ := IRM.setDt_phys L hm hp h1 h2 hj hy hmo
  have hκ' : IsNum R ⟨.fin 1, m₁.q1.unit⟩ R.cwm2 κ := by rw [hm1]; exact hκ
  have hok' : ({ p with dt := dt } : IRPar).Boxes := ⟨hok.q1, hok.q2, hok.d1, hok.d2, hok.ne, hok.e⟩
  have hf := forcing_of L hpres hF
  have hc₁ := IRM.Reachable.coherent R hreach
  have hU : IRM.UnitsOk R m₁ ({ p with dt := dt } : IRPar).e ∨ n ≤ 1 := by
    by_contra hcon
    rw [not_or, not_le] at hcon
    obtain ⟨m₃, hbad⟩ := IRM.simulate_units' L hc₁ hphys hok' hcon.2 hf hcon.1
    rw [g3] at hbad
    cases (Prod.mk.inj hbad).2
  obtain ⟨m₃, k1, k2⟩ := IRM.produces_sol' L hc₁ hphys hok' hκ' hn hf hU
  have k3 := ((IRM.produces_iff' L hc₁ hphys hok' hκ' hn hf _ _ _).mp ⟨m₃, k1, k2⟩).2
  rw [g3] at k1
  have : m₂ = m₃ := (Prod.mk.inj k1).1
  subst this
  simp only [IRM.outputs, List.cons.injEq, Prod.mk.injEq, true_and, and_true] at k2
  obtain ⟨e1, e2, e4, e3⟩ := k2
  refine ⟨_, _, _, r1, r2, rT, rU, k3, a1, b1, d1, c1, ?_⟩
  intro k t hk ht
  exact ⟨a2.consecutive hpres hk ht (by rw [e1]; exact series_get _ hk),
    b2.consecutive hpres hk ht (by rw [e2]; exact series_get _ hk),
    d2.consecutive hpres hk ht (by rw [e4]; exact series_get _ hk),
    c2.consecutive hpres hk ht (by rw [e3]; exact series_get _ hk)⟩

end TwoLayer
