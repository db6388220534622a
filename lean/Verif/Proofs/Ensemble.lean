import Verif.Spec.Ensemble
import Verif.Proofs.Alias

/-!
# An ensemble run is the runs of its members
-/

set_option linter.unusedSimpArgs false
set_option linter.unusedSectionVars false

namespace TwoLayer

/-- `y` is what `x` computes, seen through `g`; results satisfy `Q` -/
def ERef {A B : Type} (g : A → B) (Q : A → Prop) (x : Except Err A) (y : Except Err B) : Prop :=
  y = x.map g ∧ ∀ a, x = .ok a → Q a

namespace ERef
variable {A B A' B' : Type} {g : A → B} {g' : A' → B'} {Q : A → Prop} {Q' : A' → Prop}
theorem pure {a : A} {b : B} (h : g a = b) (hq : Q a) : ERef g Q (.ok a) (.ok b) := by
  subst h; exact ⟨rfl, fun _ h => by cases h; exact hq⟩
theorem err (e : Err) : ERef g Q (.error e) (.error e) := ⟨rfl, fun _ h => nomatch h⟩
theorem bind {x : Except Err A} {y : Except Err B} {f : A → Except Err A'} {k : B → Except Err B'} (h : ERef g Q x y)
    (hf : ∀ a, Q a → ERef g' Q' (f a) (k (g a))) : ERef g' Q' (x >>= f) (y >>= k) := by
  obtain ⟨rfl, h2⟩ := h
  cases x with
  | error e => exact err e
  | ok a => exact hf a (h2 a rfl)
end ERef

/-- the same for methods on objects satisfying `P` -/
def Sim {σ τ A B : Type} (P : σ → Prop) (er : σ → τ) (g : A → B) (Q : A → Prop) (x : Py σ A) (y : Py τ B) : Prop :=
  ∀ s, P s → y (er s) = (er (x s).1, (x s).2.map g) ∧ P (x s).1 ∧ ∀ a, (x s).2 = .ok a → Q a

namespace Sim
variable {σ τ A B A' B' : Type} {P : σ → Prop} {er : σ → τ} {g : A → B} {g' : A' → B'} {Q : A → Prop} {Q' : A' → Prop}
theorem pure {a : A} {b : B} (h : g a = b) (hq : Q a) : Sim P er g Q (Pure.pure a) (Pure.pure b) := by
  subst h; intro s hs; exact ⟨rfl, hs, fun _ h => by cases h; exact hq⟩
theorem throw (e : Err) : Sim P er g Q (Py.throw e) (Py.throw e) := fun _ hs => ⟨rfl, hs, fun _ h => nomatch h⟩
theorem lift {x : Except Err A} {y : Except Err B} (h : ERef g Q x y) : Sim P er g Q (Py.lift x) (Py.lift y) := by
  obtain ⟨rfl, h2⟩ := h
  exact fun s hs => ⟨rfl, hs, h2⟩
theorem get : Sim P er er P Py.get Py.get := fun _ hs => ⟨rfl, hs, fun _ h => by cases h; exact hs⟩
theorem modify {f : σ → σ} {k : τ → τ} (h : ∀ s, er (f s) = k (er s)) (hp : ∀ s, P s → P (f s)) :
    Sim P er (id : Unit → Unit) (fun _ => True) (Py.modify f) (Py.modify k) := by
  intro s hs
  refine ⟨?_, hp s hs, fun _ _ => trivial⟩
  simp [Except.map, h]
theorem bind {x : Py σ A} {y : Py τ B} {f : A → Py σ A'} {k : B → Py τ B'} (h : Sim P er g Q x y)
    (hf : ∀ a, Q a → Sim P er g' Q' (f a) (k (g a))) : Sim P er g' Q' (x >>= f) (y >>= k) := by
  intro s hs
  simp only [Py.bind_apply]
  obtain ⟨h1, h2, h3⟩ := h s hs
  rcases hx : x s with ⟨s', r⟩
  rw [hx] at h1 h2 h3
  rw [h1]
  cases r with
  | error e => exact ⟨rfl, h2, fun _ h => nomatch h⟩
  | ok a => exact hf a (h3 a rfl) s' h2
theorem onCore {κ κ' : Type} {Pc : κ → Prop} {erc : κ → κ'} {gs : σ → κ} {gt : τ → κ'} {ss : σ → κ → σ} {st : τ → κ' → τ}
    (h1 : ∀ s, gt (er s) = erc (gs s)) (h2 : ∀ s c, er (ss s c) = st (er s) (erc c)) (h3 : ∀ s, P s → Pc (gs s))
    (h4 : ∀ s c, P s → Pc c → P (ss s c)) {x : Py κ A} {y : Py κ' B}
    (h : Sim Pc erc g Q x y) : Sim P er g Q (Py.onCore gs ss x) (Py.onCore gt st y) := by
  intro s hs
  obtain ⟨a, b, c⟩ := h (gs s) (h3 s hs)
  simp only [Py.onCore, h1, h2, a]
  exact ⟨trivial, h4 _ _ hs b, c⟩
theorem times {x : Py σ Unit} {y : Py τ Unit} (h : Sim P er (id : Unit → Unit) (fun _ => True) x y) (k : ℕ) :
    Sim P er (id : Unit → Unit) (fun _ => True) (Py.times x k) (Py.times y k) := by
  induction k with
  | zero => exact pure rfl trivial
  | succ k ih => exact bind h fun _ _ => ih
theorem ite {c d : Prop} [Decidable c] [Decidable d] (h : d ↔ c) {x x' : Py σ A} {y y' : Py τ B}
    (h1 : Sim P er g Q x y) (h2 : Sim P er g Q x' y') : Sim P er g Q (if d then x else x') (if c then y else y') := by
  by_cases hc : c
  · rw [if_pos hc, if_pos (h.2 hc)]; exact h1
  · rw [if_neg hc, if_neg (fun x => hc (h.1 x))]; exact h2
end Sim

variable {N ι α : Type} [Fintype N] [DecidableEq N] [Fintype ι] [Arith α] {R : Registry N α}

namespace Ens
@[simp] theorem get_map (i : ι) (g : α → α) (x : Ens ι α) : (x.map g).get i = g (x.get i) := by cases x <;> rfl
@[simp] theorem get_map₂ (i : ι) (g : α → α → α) (x y : Ens ι α) : (map₂ g x y).get i = g (x.get i) (y.get i) := by
  cases x <;> cases y <;> rfl
@[simp] theorem get_add (i : ι) (x y : Ens ι α) : (x + y).get i = x.get i + y.get i := get_map₂ i _ x y
@[simp] theorem get_sub (i : ι) (x y : Ens ι α) : (x - y).get i = x.get i - y.get i := get_map₂ i _ x y
@[simp] theorem get_mul (i : ι) (x y : Ens ι α) : (x * y).get i = x.get i * y.get i := get_map₂ i _ x y
@[simp] theorem get_div (i : ι) (x y : Ens ι α) : (x / y).get i = x.get i / y.get i := get_map₂ i _ x y
@[simp] theorem get_neg (i : ι) (x : Ens ι α) : (-x).get i = -x.get i := get_map i _ x
@[simp] theorem get_exp (i : ι) (x : Ens ι α) : (Arith.exp x).get i = Arith.exp (x.get i) := get_map i _ x
@[simp] theorem get_ofNat (i : ι) (n : ℕ) : (Arith.ofNat n : Ens ι α).get i = Arith.ofNat n := rfl
@[simp] theorem get_dec (i : ι) (n e : ℕ) : (Arith.dec n e : Ens ι α).get i = Arith.dec n e := rfl
@[simp] theorem get_nan (i : ι) : (Arith.nan : Ens ι α).get i = Arith.nan := rfl
@[simp] theorem get_one (i : ι) (x : α) : (one x : Ens ι α).get i = x := rfl
@[simp] theorem get_row (i : ι) (f : ι → α) : (row f : Ens ι α).get i = f i := rfl
end Ens

theorem magIn_member (i : ι) (q : Qty N (Ens ι α)) (u : Units N) :
    (q.magIn (R.members ι) u).get i = (q.member i).magIn R u := by
  unfold Qty.magIn
  by_cases h : q.unit = u
  · rw [if_pos h, if_pos (show (q.member i).unit = u from h)]; rfl
  · rw [if_neg h, if_neg (show ¬ (q.member i).unit = u from h)]; exact Ens.get_map i _ _

theorem mul_member (i : ι) (p q : Qty N (Ens ι α)) : (p.mul q).member i = (p.member i).mul (q.member i) := by
  simp only [Qty.mul, Qty.member, Ens.get_mul]

theorem eref_toUnit (i : ι) (q : Qty N (Ens ι α)) (u : Units N) :
    ERef (Qty.member i) (fun _ => True) (q.toUnit (R.members ι) u) ((q.member i).toUnit R u) := by
  unfold Qty.toUnit
  by_cases h : q.unit = u ∨ R.compat q.unit u = true
  · rw [if_pos (show (q.member i).unit = u ∨ R.compat (q.member i).unit u = true from h),
      if_pos (show q.unit = u ∨ (R.members ι).compat q.unit u = true from h)]
    refine ERef.pure ?_ trivial
    simp only [Qty.member, Qty.mk.injEq, and_true]
    exact magIn_member i q u
  · rw [if_neg (show ¬ ((q.member i).unit = u ∨ R.compat (q.member i).unit u = true) from h),
      if_neg (show ¬ (q.unit = u ∨ (R.members ι).compat q.unit u = true) from h)]
    exact ERef.err _

theorem eref_checkQty (i : ι) (v : Arg N (Ens ι α)) (s : String) (u : Units N) :
    ERef (Qty.member i) (fun q => v = .qty q) (checkQty (R.members ι) v s u) (checkQty R (v.member i) s u) := by
  cases v with
  | bare => exact ERef.err _
  | qty q =>
    simp only [checkQty, Arg.member, Qty.toUnit]
    by_cases h : q.unit = u ∨ R.compat q.unit u = true
    · rw [if_pos (show (q.member i).unit = u ∨ R.compat (q.member i).unit u = true from h),
        if_pos (show q.unit = u ∨ (R.members ι).compat q.unit u = true from h)]
      exact ERef.pure rfl rfl
    · rw [if_neg (show ¬ ((q.member i).unit = u ∨ R.compat (q.member i).unit u = true) from h),
        if_neg (show ¬ (q.unit = u ∨ (R.members ι).compat q.unit u = true) from h)]
      exact ERef.err _

theorem magsIn_member (i : ι) (l : List (Ens ι α)) (u v : Units N) :
    (magsIn (R.members ι) l u v).map (Ens.get i) = magsIn R (l.map (Ens.get i)) u v := by
  unfold magsIn
  rw [List.map_map, List.map_map]
  exact List.map_congr_left fun x _ => magIn_member i ⟨x, u⟩ v

theorem eref_getAt (i : ι) (l : List (Ens ι α)) (k : ℕ) :
    ERef (Ens.get i) (fun _ => True) (getAt l k) (getAt (l.map (Ens.get i)) k) := by
  unfold getAt
  rw [List.getElem?_map]
  cases l[k]? with
  | none => exact ERef.err _
  | some x => exact ERef.pure rfl trivial

theorem eref_setAt (i : ι) (l : List (Ens ι α)) (k : ℕ) (x : Ens ι α) {y : α} (h : x.get i = y) :
    ERef (List.map (Ens.get i)) (fun _ => True) (setAt l k x) (setAt (l.map (Ens.get i)) k y) := by
  subst h
  unfold setAt
  rw [List.length_map]
  by_cases h : k < l.length
  · rw [if_pos h, if_pos h]; exact ERef.pure (List.map_set ..) trivial
  · rw [if_neg h, if_neg h]; exact ERef.err _

theorem eref_erfAt (i : ι) (c : Core N (Ens ι α)) (k : ℕ) :
    ERef (Ens.get i) (fun _ => True) (c.erfAt k) ((c.member i).erfAt k) := by
  unfold Core.erfAt
  rcases c with ⟨_, _, _, _ | l⟩
  · exact ERef.err _
  · exact eref_getAt i l k

theorem length_member (i : ι) (e : Erf N (Ens ι α)) : (e.member i).length = e.length := by
  cases e with
  | unset => rfl
  | set l u => simp only [Erf.member, Erf.length, List.length_map]
theorem nanLike_member (i : ι) (l : List (Ens ι α)) : (nanLike l).map (Ens.get i) = nanLike (l.map (Ens.get i)) := by
  simp only [nanLike, List.map_map]; rfl

/-- all members have the same answer to "are drivers missing?", and it is the ensemble's -/
def Erf.Uniform (e : Erf N (Ens ι α)) : Prop := e = .unset ∨ e.anyNaN = false

theorem isNaN_get {x : Ens ι α} (h : Arith.isNaN x = false) (i : ι) : Arith.isNaN (x.get i) = false := by
  cases x with
  | one x => exact h
  | row f =>
    have h : decide (∃ i, Arith.isNaN (f i) = true) = false := h
    rw [decide_eq_false_iff_not, not_exists] at h
    exact Bool.eq_false_iff.mpr (h i)

theorem isNaN_row {f : ι → α} (h : ∀ i, Arith.isNaN (f i) = false) : Arith.isNaN (Ens.row f : Ens ι α) = false := by
  show decide (∃ i, Arith.isNaN (f i) = true) = false
  rw [decide_eq_false_iff_not]
  rintro ⟨i, hi⟩
  rw [h i] at hi; cases hi

theorem Erf.Uniform.anyNaN {e : Erf N (Ens ι α)} (h : e.Uniform) (i : ι) : (e.member i).anyNaN = e.anyNaN := by
  rcases h with rfl | h
  · rfl
  · rw [h]
    cases e with
    | unset => cases h
    | set l u =>
      simp only [Erf.anyNaN, Erf.member, List.any_map, List.any_eq_false] at h ⊢
      intro x hx
      have := isNaN_get (Bool.eq_false_iff.mpr (h x hx)) i
      simp [this]

/-- drivers of the ensemble object are uniform -/
def Core.Uniform (c : Core N (Ens ι α)) : Prop := c.erf.Uniform

theorem sim_coreSetDeltaT {P : Core N (Ens ι α) → Prop} (i : ι) (u : Units N) (v : Arg N (Ens ι α))
    (hP : ∀ c q, P c → v = .qty q → P { c with deltaT := q, deltaTMag := q.magIn (R.members ι) u }) :
    Sim P (Core.member i) (id : Unit → Unit) (fun _ => True) (Core.setDeltaT (R.members ι) u v)
      (Core.setDeltaT R u (v.member i)) := by
  refine Sim.bind (Sim.lift (eref_checkQty i v _ _)) fun q hq => Sim.modify (fun c => ?_) fun c hc => hP c q hc hq
  simp only [Core.member, magIn_member]

theorem sim_coreSetErf {P : Core N (Ens ι α) → Prop} (i : ι) (vals : List (ι → α)) (u : Units N)
    (hP : ∀ c F, P c → P { c with erf := .set (vals.map Ens.row) u, erfMag := F }) :
    Sim P (Core.member i) (id : Unit → Unit) (fun _ => True) (Core.setErf (R.members ι) (rows vals u))
      (Core.setErf R (column i vals u)) := by
  refine Sim.ite (Iff.rfl : _ ↔ (u = R.wm2 ∨ R.compat u R.wm2 = true)) (Sim.modify (fun c => ?_) fun c hc => hP c _ hc)
    (Sim.throw _)
  simp only [Core.member, Erf.member, Option.map_some, magsIn_member, List.map_map]; rfl

namespace TLM
/-- the ensemble object's drivers are uniform -/
abbrev Uni (m : TLM N (Ens ι α)) : Prop := m.core.erf.Uniform
variable (i : ι)

theorem sim_setDu (v : Arg N (Ens ι α)) :
    Sim Uni (member i) (id : Unit → Unit) (fun _ => True) (setDu (R.members ι) v) (setDu R (v.member i)) := by
  refine Sim.bind (Sim.lift (eref_checkQty i v _ _)) fun q _ => ?_
  refine Sim.bind (Sim.modify (fun m => rfl) fun _ h => h) fun _ _ => ?_
  refine Sim.bind (Sim.modify (fun m => ?_) fun _ h => h) fun _ _ => ?_
  · simp only [member, magIn_member]; rfl
  refine Sim.bind Sim.get fun m _ => ?_
  refine Sim.bind (g := Qty.member i) (Q := fun _ => True) (Sim.lift ?_) fun h _ => Sim.modify (fun m => rfl) fun _ h => h
  have e : (m.heatCapacityUpper (R.members ι)).member i = (m.member i).heatCapacityUpper R := by
    simp only [heatCapacityUpper, heatCapacityOf, mul_member]; rfl
  rw [← e]; exact eref_toUnit i _ _

theorem sim_setDl (v : Arg N (Ens ι α)) :
    Sim Uni (member i) (id : Unit → Unit) (fun _ => True) (setDl (R.members ι) v) (setDl R (v.member i)) := by
  refine Sim.bind (Sim.lift (eref_checkQty i v _ _)) fun q _ => ?_
  refine Sim.bind (Sim.modify (fun m => rfl) fun _ h => h) fun _ _ => ?_
  refine Sim.bind (Sim.modify (fun m => ?_) fun _ h => h) fun _ _ => ?_
  · simp only [member, magIn_member]; rfl
  refine Sim.bind Sim.get fun m _ => ?_
  refine Sim.bind (g := Qty.member i) (Q := fun _ => True) (Sim.lift ?_) fun h _ => Sim.modify (fun m => rfl) fun _ h => h
  have e : (m.heatCapacityLower (R.members ι)).member i = (m.member i).heatCapacityLower R := by
    simp only [heatCapacityLower, heatCapacityOf, mul_member]; rfl
  rw [← e]; exact eref_toUnit i _ _

theorem sim_setLambda0 (v : Arg N (Ens ι α)) :
    Sim Uni (member i) (id : Unit → Unit) (fun _ => True) (setLambda0 (R.members ι) v) (setLambda0 R (v.member i)) := by
  refine Sim.bind (Sim.lift (eref_checkQty i v _ _)) fun q _ => Sim.modify (fun m => ?_) fun _ h => h
  simp only [member, magIn_member]; rfl
theorem sim_setA (v : Arg N (Ens ι α)) :
    Sim Uni (member i) (id : Unit → Unit) (fun _ => True) (setA (R.members ι) v) (setA R (v.member i)) := by
  refine Sim.bind (Sim.lift (eref_checkQty i v _ _)) fun q _ => Sim.modify (fun m => ?_) fun _ h => h
  simp only [member, magIn_member]; rfl
theorem sim_setEfficacy (v : Arg N (Ens ι α)) :
    Sim Uni (member i) (id : Unit → Unit) (fun _ => True) (setEfficacy (R.members ι) v) (setEfficacy R (v.member i)) := by
  refine Sim.bind (Sim.lift (eref_checkQty i v _ _)) fun q _ => Sim.modify (fun m => ?_) fun _ h => h
  simp only [member, magIn_member]; rfl
theorem sim_setEta (v : Arg N (Ens ι α)) :
    Sim Uni (member i) (id : Unit → Unit) (fun _ => True) (setEta (R.members ι) v) (setEta R (v.member i)) := by
  refine Sim.bind (Sim.lift (eref_checkQty i v _ _)) fun q _ => Sim.modify (fun m => ?_) fun _ h => h
  simp only [member, magIn_member]; rfl

theorem sim_setDeltaT (v : Arg N (Ens ι α)) :
    Sim Uni (member i) (id : Unit → Unit) (fun _ => True) (setDeltaT (R.members ι) v) (setDeltaT R (v.member i)) :=
  Sim.onCore (Pc := fun c => c.erf.Uniform) (erc := Core.member i) (gs := TLM.core) (gt := TLM.core)
    (ss := fun m c => { m with core := c }) (st := fun m c => { m with core := c }) (fun _ => rfl) (fun _ _ => rfl)
    (fun _ h => h) (fun _ _ _ h => h) (sim_coreSetDeltaT i _ v fun _ _ h _ => h)

theorem sim_setErf (vals : List (ι → α)) (u : Units N) (hv : ∀ f ∈ vals, ∀ i, Arith.isNaN (f i) = false) :
    Sim Uni (member i) (id : Unit → Unit) (fun _ => True) (setErf (R.members ι) (rows vals u)) (setErf R (column i vals u)) :=
  Sim.onCore (Pc := fun c => c.erf.Uniform) (erc := Core.member i) (gs := TLM.core) (gt := TLM.core)
    (ss := fun m c => { m with core := c }) (st := fun m c => { m with core := c }) (fun _ => rfl) (fun _ _ => rfl)
    (fun _ h => h) (fun _ _ _ h => h) (sim_coreSetErf i vals u fun _ _ _ => .inr (by
      simp only [Erf.anyNaN, List.any_map, List.any_eq_false]
      intro f hf
      simp [isNaN_row (hv f hf)]))

theorem sim_reset : Sim Uni (member i) (id : Unit → Unit) (fun _ => True) (reset : Py (TLM N (Ens ι α)) Unit) reset := by
  refine Sim.bind Sim.get fun m hm => ?_
  refine Sim.ite (by rw [show (m.member i).core.erf = m.core.erf.member i from rfl, hm.anyNaN i]) (Sim.throw _) ?_
  have e : (m.member i).core.erfMag = m.core.erfMag.map (List.map (Ens.get i)) := rfl
  rw [e]
  cases m.core.erfMag with
  | none => exact Sim.bind (Sim.modify (fun m => rfl) fun _ h => h) fun _ _ => Sim.throw _
  | some l =>
    refine Sim.modify (fun m => ?_) fun _ h => h
    simp only [member, nanLike_member]

theorem sim_step : Sim Uni (member i) (id : Unit → Unit) (fun _ => True) (step : Py (TLM N (Ens ι α)) Unit) step := by
  refine Sim.bind Sim.get fun m0 _ => ?_
  refine Sim.bind (Sim.modify (fun m => rfl) fun _ h => h) fun _ _ => ?_
  refine Sim.bind Sim.get fun m _ => ?_
  have e : nextIdx (m0.member i).idx = nextIdx m0.idx := rfl
  rw [e]
  cases nextIdx m0.idx with
  | zero =>
    refine Sim.bind (Sim.lift (eref_setAt i _ _ _ rfl)) fun tu _ => ?_
    refine Sim.bind (Sim.modify (fun m => rfl) fun _ h => h) fun _ _ => ?_
    refine Sim.bind (Sim.lift (eref_setAt i _ _ _ rfl)) fun tl _ => ?_
    refine Sim.bind (Sim.modify (fun m => rfl) fun _ h => h) fun _ _ => ?_
    refine Sim.bind (Sim.lift (eref_setAt i _ _ _ rfl)) fun rndt _ => Sim.modify (fun m => rfl) fun _ h => h
  | succ j =>
    refine Sim.bind (Sim.lift (eref_getAt i _ _)) fun tuPrev _ => ?_
    refine Sim.bind (Sim.lift (eref_getAt i _ _)) fun tlPrev _ => ?_
    refine Sim.bind (Sim.lift (eref_erfAt i _ _)) fun erf _ => ?_
    refine Sim.bind (Sim.lift (eref_setAt i _ _ _ ?_)) fun tu _ => ?_
    · simp only [calcNextTempUpper, Ens.get_add, Ens.get_sub, Ens.get_mul, Ens.get_div]; rfl
    refine Sim.bind (Sim.modify (fun m => rfl) fun _ h => h) fun _ _ => ?_
    refine Sim.bind Sim.get fun m _ => ?_
    refine Sim.bind (Sim.lift (eref_getAt i _ _)) fun tlPrev _ => ?_
    refine Sim.bind (Sim.lift (eref_getAt i _ _)) fun tuPrev _ => ?_
    refine Sim.bind (Sim.lift (eref_setAt i _ _ _ ?_)) fun tl _ => ?_
    · simp only [calcNextTempLower, Ens.get_add, Ens.get_sub, Ens.get_mul, Ens.get_div]; rfl
    refine Sim.bind (Sim.modify (fun m => rfl) fun _ h => h) fun _ _ => ?_
    refine Sim.bind Sim.get fun m _ => ?_
    refine Sim.bind (Sim.lift (eref_getAt i _ _)) fun tlNow _ => ?_
    refine Sim.bind (Sim.lift (eref_getAt i _ _)) fun tlPrev _ => ?_
    refine Sim.bind (Sim.lift (eref_getAt i _ _)) fun tuNow _ => ?_
    refine Sim.bind (Sim.lift (eref_getAt i _ _)) fun tuPrev _ => ?_
    refine Sim.bind (Sim.lift (eref_setAt i _ _ _ ?_)) fun rndt _ => Sim.modify (fun m => rfl) fun _ h => h
    simp only [calcNextRndt, Ens.get_add, Ens.get_sub, Ens.get_mul, Ens.get_div]; rfl

theorem sim_run : Sim Uni (member i) (id : Unit → Unit) (fun _ => True) (run : Py (TLM N (Ens ι α)) Unit) run := by
  refine Sim.bind Sim.get fun m _ => ?_
  rw [show (m.member i).core.erf.length = m.core.erf.length from length_member i _]
  exact Sim.times (sim_step i) _

theorem sim_call [DecidableEq α] (op : EnsOp N ι α) (h : op.complete) :
    Sim Uni (member i) (id : Unit → Unit) (fun _ => True) (call (R.members ι) op.op) (call R (op.member i)) := by
  cases op with
  | setDu v => exact sim_setDu i v
  | setDl v => exact sim_setDl i v
  | setLambda0 v => exact sim_setLambda0 i v
  | setA v => exact sim_setA i v
  | setEfficacy v => exact sim_setEfficacy i v
  | setEta v => exact sim_setEta i v
  | setDeltaT v => exact sim_setDeltaT i v
  | setErf vals u => exact sim_setErf i vals u h
  | reset => exact sim_reset i
  | step => exact sim_step i
  | run => exact sim_run i

theorem eref_init (x : Args N (Ens ι α)) : ERef (member i) Uni (init (R.members ι) x) (init R (x.member i)) := by
  have hc : ∀ q : Qty N (Ens ι α), (heatCapacityOf (R.members ι) q).member i = heatCapacityOf R (q.member i) := by
    intro q; simp only [heatCapacityOf, mul_member]; rfl
  unfold init
  refine ERef.bind (eref_checkQty i _ _ _) fun du _ => ?_
  refine ERef.bind (g := Qty.member i) (Q := fun _ => True) (by rw [← hc]; exact eref_toUnit i _ _) fun hcu _ => ?_
  refine ERef.bind (eref_checkQty i _ _ _) fun dl _ => ?_
  refine ERef.bind (g := Qty.member i) (Q := fun _ => True) (by rw [← hc]; exact eref_toUnit i _ _) fun hcl _ => ?_
  refine ERef.bind (eref_checkQty i _ _ _) fun l _ => ?_
  refine ERef.bind (eref_checkQty i _ _ _) fun a _ => ?_
  refine ERef.bind (eref_checkQty i _ _ _) fun e _ => ?_
  refine ERef.bind (eref_checkQty i _ _ _) fun h _ => ?_
  refine ERef.bind (eref_checkQty i _ _ _) fun d _ => ?_
  refine ERef.pure ?_ (.inl rfl)
  simp only [member, Core.member, magIn_member, Option.map_none, Erf.member]; rfl
end TLM

/-! ## Scalar parameters: computing with numbers shared by all members -/

/-- the same Quantity for all members -/
def Qty.shared (ι : Type) (q : Qty N α) : Qty N (Ens ι α) := ⟨.one q.mag, q.unit⟩
/-- the magnitude is shared by all members -/
def Qty.IsShared (q : Qty N (Ens ι α)) : Prop := ∃ x, q.mag = .one x

theorem Qty.IsShared.eq {q : Qty N (Ens ι α)} (h : q.IsShared) (i : ι) : q = (q.member i).shared ι := by
  obtain ⟨x, h⟩ := h
  rcases q with ⟨m, u⟩
  cases (show m = .one x from h)
  rfl

theorem magIn_shared (q : Qty N α) (u : Units N) : (q.shared ι).magIn (R.members ι) u = .one (q.magIn R u) := by
  unfold Qty.magIn
  by_cases h : q.unit = u
  · rw [if_pos h, if_pos (show (q.shared ι).unit = u from h)]; rfl
  · rw [if_neg h, if_neg (show ¬ (q.shared ι).unit = u from h)]; rfl

theorem pyDiv_one (x y : α) : pyDiv (.one x : Ens ι α) (.one y) = (pyDiv x y).map .one := by
  unfold pyDiv
  show (if (Arith.eq y (Arith.ofNat 0) && (Arith.isPy x && Arith.isPy y)) = true then _ else _) = _
  split <;> rfl

/-- abbreviation: no condition on the result -/
abbrev any {A : Type} : A → Prop := fun _ => True

theorem shared_div (p q : Qty N α) : ERef (Qty.shared ι) any (p.div q) ((p.shared ι).div (q.shared ι)) :=
  ERef.bind (g := Ens.one) (Q := any) ⟨pyDiv_one _ _, fun _ _ => trivial⟩ fun _ _ => ERef.pure rfl trivial
theorem shared_ndiv (n : ℕ) (q : Qty N α) :
    ERef (Qty.shared ι) any (Qty.ndiv (Arith.ofNat n) q) (Qty.ndiv (Arith.ofNat n) (q.shared ι)) :=
  ERef.bind (g := Ens.one) (Q := any) ⟨pyDiv_one (Arith.ofNat n) _, fun _ _ => trivial⟩ fun _ _ => ERef.pure rfl trivial

theorem shared_add (p q : Qty N α) : ERef (Qty.shared ι) any (p.add R q) ((p.shared ι).add (R.members ι) (q.shared ι)) := by
  unfold Qty.add
  by_cases h : q.unit = p.unit ∨ R.compat q.unit p.unit = true
  · rw [if_pos (show (q.shared ι).unit = (p.shared ι).unit ∨ (R.members ι).compat (q.shared ι).unit (p.shared ι).unit = true from h),
      if_pos h]
    refine ERef.pure ?_ trivial
    have := magIn_shared (R := R) (ι := ι) q p.unit
    simp only [Qty.shared, Qty.mk.injEq, and_true] at this ⊢
    rw [this]; rfl
  · rw [if_neg (show ¬ ((q.shared ι).unit = (p.shared ι).unit ∨ (R.members ι).compat (q.shared ι).unit (p.shared ι).unit = true) from h),
      if_neg h]
    exact ERef.err _

theorem shared_sub (p q : Qty N α) : ERef (Qty.shared ι) any (p.sub R q) ((p.shared ι).sub (R.members ι) (q.shared ι)) := by
  unfold Qty.sub
  by_cases h : q.unit = p.unit ∨ R.compat q.unit p.unit = true
  · rw [if_pos (show (q.shared ι).unit = (p.shared ι).unit ∨ (R.members ι).compat (q.shared ι).unit (p.shared ι).unit = true from h),
      if_pos h]
    refine ERef.pure ?_ trivial
    have := magIn_shared (R := R) (ι := ι) q p.unit
    simp only [Qty.shared, Qty.mk.injEq, and_true] at this ⊢
    rw [this]; rfl
  · rw [if_neg (show ¬ ((q.shared ι).unit = (p.shared ι).unit ∨ (R.members ι).compat (q.shared ι).unit (p.shared ι).unit = true) from h),
      if_neg h]
    exact ERef.err _

theorem shared_nsub (n : ℕ) (q : Qty N α) :
    ERef (Qty.shared ι) any (Qty.nsub R (Arith.ofNat n) q) (Qty.nsub (R.members ι) (Arith.ofNat n) (q.shared ι)) := by
  unfold Qty.nsub
  by_cases h : q.unit = 0 ∨ R.compat q.unit 0 = true
  · rw [if_pos (show (q.shared ι).unit = 0 ∨ (R.members ι).compat (q.shared ι).unit 0 = true from h), if_pos h]
    refine ERef.pure ?_ trivial
    have := magIn_shared (R := R) (ι := ι) q 0
    simp only [Qty.shared, Qty.mk.injEq, and_true] at this ⊢
    rw [this]; rfl
  · rw [if_neg (show ¬ ((q.shared ι).unit = 0 ∨ (R.members ι).compat (q.shared ι).unit 0 = true) from h), if_neg h]
    exact ERef.err _

theorem shared_sqrt (q : Qty N α) : ERef (Qty.shared ι) any q.sqrt (q.shared ι).sqrt := by
  unfold Qty.sqrt
  have e : (Arith.lt (q.shared ι).mag (Arith.ofNat 0) && Arith.isPy (q.shared ι).mag) =
    (Arith.lt q.mag (Arith.ofNat 0) && Arith.isPy q.mag) := rfl
  rw [e]
  split
  · exact ERef.err _
  · exact ERef.pure rfl trivial

theorem shared_ge (p q : Qty N α) : (p.shared ι).ge (R.members ι) (q.shared ι) = p.ge R q := by
  unfold Qty.ge
  by_cases h : p.unit = q.unit
  · rw [if_pos h, if_pos (show (p.shared ι).unit = (q.shared ι).unit from h)]; rfl
  · rw [if_neg h, if_neg (show ¬ (p.shared ι).unit = (q.shared ι).unit from h)]
    by_cases h2 : R.compat p.unit q.unit = true
    · rw [if_pos (show (R.members ι).compat (p.shared ι).unit (q.shared ι).unit = true from h2), if_pos h2]
      rw [show (R.members ι).root (q.shared ι).unit = R.root q.unit from rfl,
        show (R.members ι).root (p.shared ι).unit = R.root p.unit from rfl, magIn_shared, magIn_shared]
      rfl
    · rw [if_neg (show ¬ (R.members ι).compat (p.shared ι).unit (q.shared ι).unit = true from h2), if_neg h2]

/-- helper parameters, shared -/
def GH.shared (ι : Type) (g : GH N α) : GH N (Ens ι α) :=
  ⟨g.C.shared ι, g.CD.shared ι, g.b.shared ι, g.bStar.shared ι, g.delta.shared ι, g.tau1.shared ι, g.tau2.shared ι,
    g.phi1.shared ι, g.phi2.shared ι, g.a1.shared ι, g.a2.shared ι⟩

theorem shared_geoffroy (du dl l e h : Qty N α) : ERef (GH.shared ι) any (geoffroy R du dl l e h)
    (geoffroy (R.members ι) (du.shared ι) (dl.shared ι) (l.shared ι) (e.shared ι) (h.shared ι)) := by
  unfold geoffroy
  refine ERef.bind (shared_add _ _) fun num _ => ?_
  refine ERef.bind (shared_div _ _) fun bPt1 _ => ?_
  refine ERef.bind (shared_div _ _) fun bPt2 _ => ?_
  refine ERef.bind (shared_add _ _) fun b _ => ?_
  refine ERef.bind (shared_sub _ _) fun bStar _ => ?_
  refine ERef.bind (shared_div _ _) fun disc _ => ?_
  refine ERef.bind (shared_sub _ _) fun delta _ => ?_
  refine ERef.bind (shared_div _ _) fun taucoeff _ => ?_
  refine ERef.bind (shared_sqrt _) fun root _ => ?_
  refine ERef.bind (shared_sub _ _) fun bMinus _ => ?_
  refine ERef.bind (shared_add _ _) fun bPlus _ => ?_
  refine ERef.bind (shared_div _ _) fun phicoeff _ => ?_
  refine ERef.bind (shared_sub _ _) fun bsMinus _ => ?_
  refine ERef.bind (shared_add _ _) fun bsPlus _ => ?_
  refine ERef.bind (shared_sub _ _) fun dphi _ => ?_
  refine ERef.bind (shared_div _ _) fun a1 _ => ?_
  refine ERef.bind (shared_div _ _) fun a2 _ => ?_
  exact ERef.pure rfl trivial

/-- converted parameters, shared -/
def IRM.TLParams.shared (ι : Type) (p : IRM.TLParams N α) : IRM.TLParams N (Ens ι α) :=
  ⟨p.lambda0.shared ι, p.du.shared ι, p.dl.shared ι, p.eta.shared ι, p.efficacy.shared ι⟩

/-- parameters and time step of an ensemble object are shared by all members; drivers are uniform -/
structure IRM.Uni (m : IRM N (Ens ι α)) : Prop where
  q1 : m.q1.IsShared
  q1Mag : ∃ x, m.q1Mag = .one x
  q2 : m.q2.IsShared
  q2Mag : ∃ x, m.q2Mag = .one x
  d1 : m.d1.IsShared
  d1Mag : ∃ x, m.d1Mag = .one x
  d2 : m.d2.IsShared
  d2Mag : ∃ x, m.d2Mag = .one x
  efficacy : m.efficacy.IsShared
  efficacyMag : ∃ x, m.efficacyMag = .one x
  dtMag : ∃ x, m.core.deltaTMag = .one x
  erf : m.core.erf.Uniform

theorem shared_getTL {m : IRM N (Ens ι α)} (h : m.Uni) (i : ι) : ERef (IRM.TLParams.shared ι) any
    ((m.member i).getTwoLayerParameters R) (m.getTwoLayerParameters (R.members ι)) := by
  unfold IRM.getTwoLayerParameters
  have e1 := h.q1.eq i
  have e2 := h.q2.eq i
  have e3 := h.d1.eq i
  have e4 := h.d2.eq i
  have e5 := h.efficacy.eq i
  rw [e1, e2, e3, e4, e5]
  refine ERef.bind (shared_add _ _) fun qsum _ => ?_
  refine ERef.bind (shared_ndiv _ _) fun lambda0 _ => ?_
  refine ERef.bind (shared_add _ _) fun cden _ => ?_
  refine ERef.bind (shared_div _ _) fun C _ => ?_
  refine ERef.bind (shared_add _ _) fun s1 _ => ?_
  refine ERef.bind (shared_sub _ _) fun cd0 _ => ?_
  refine ERef.bind (shared_div _ _) fun CD _ => ?_
  refine ERef.bind (shared_add _ _) fun s2 _ => ?_
  refine ERef.bind (shared_div _ _) fun eta _ => ?_
  refine ERef.bind (shared_div _ _) fun du _ => ?_
  refine ERef.bind (shared_div _ _) fun dl _ => ?_
  exact ERef.pure rfl trivial

theorem eref_add (i : ι) (p q : Qty N (Ens ι α)) :
    ERef (Qty.member i) any (p.add (R.members ι) q) ((p.member i).add R (q.member i)) := by
  unfold Qty.add
  by_cases h : q.unit = p.unit ∨ R.compat q.unit p.unit = true
  · rw [if_pos (show (q.member i).unit = (p.member i).unit ∨ R.compat (q.member i).unit (p.member i).unit = true from h),
      if_pos (show q.unit = p.unit ∨ (R.members ι).compat q.unit p.unit = true from h)]
    refine ERef.pure ?_ trivial
    have := magIn_member (R := R) i q p.unit
    simp only [Qty.member, Qty.mk.injEq, and_true, Ens.get_add] at this ⊢
    rw [← this]
  · rw [if_neg (show ¬ ((q.member i).unit = (p.member i).unit ∨ R.compat (q.member i).unit (p.member i).unit = true) from h),
      if_neg (show ¬ (q.unit = p.unit ∨ (R.members ι).compat q.unit p.unit = true) from h)]
    exact ERef.err _

theorem ERef.flip {A B C : Type} {g : A → B} {c : B → C} {x : Except Err A} {y : Except Err B} (h : ERef g any x y)
    {x' : Except Err C} (hx : x' = x.map (fun a => c (g a))) : ERef c any y x' := by
  obtain ⟨rfl, -⟩ := h
  subst hx
  exact ⟨by cases x <;> rfl, fun _ _ => trivial⟩

namespace IRM
variable (i : ι)

theorem eref_calcNextTemp {dt d : Ens ι α} (h1 : ∃ x, dt = .one x) (h2 : ∃ x, d = .one x) (t q f : Ens ι α) :
    ERef (Ens.get i) any (calcNextTemp dt t q d f) (calcNextTemp (dt.get i) (t.get i) (q.get i) (d.get i) (f.get i)) := by
  obtain ⟨x, rfl⟩ := h1
  obtain ⟨y, rfl⟩ := h2
  have hd : ERef (Ens.get i) any (pyDiv (-(Ens.one x : Ens ι α)) (.one y)) (pyDiv (-x) y) := by
    have := pyDiv_one (ι := ι) (-x) y
    rw [show (-(Ens.one x : Ens ι α)) = .one (-x) from rfl, this]
    cases pyDiv (-x) y with
    | ok z => exact ERef.pure rfl trivial
    | error e => exact ERef.err _
  unfold calcNextTemp
  refine ERef.bind hd fun a _ => ?_
  refine ERef.bind hd fun b _ => ?_
  refine ERef.pure ?_ trivial
  simp only [Ens.get_add, Ens.get_mul, Ens.get_sub, Ens.get_exp, Ens.get_ofNat]

theorem eref_calcNextRndt {m : IRM N (Ens ι α)} (h : m.Uni) (t1 t2 f : Ens ι α) {e : Ens ι α} (he : ∃ x, e = .one x) :
    ERef (Ens.get i) any (m.calcNextRndt (R.members ι) t1 t2 f e)
      ((m.member i).calcNextRndt R (t1.get i) (t2.get i) (f.get i) (e.get i)) := by
  obtain ⟨e, rfl⟩ := he
  unfold calcNextRndt
  have hg := (shared_getTL (R := R) h i).1
  rw [hg]
  cases (m.member i).getTwoLayerParameters R with
  | error er => exact ERef.err _
  | ok p =>
    show ERef (Ens.get i) any (if Arith.eq e (Arith.ofNat 1) = true then _ else _)
      (if Arith.eq e (Arith.ofNat 1) = true then _ else _)
    by_cases h1 : Arith.eq e (Arith.ofNat 1) = true
    · rw [if_pos h1, if_pos h1]
      refine ERef.pure ?_ trivial
      simp only [Ens.get_add, Ens.get_mul, Ens.get_sub]; rfl
    · rw [if_neg h1, if_neg h1]
      have hgh := (shared_geoffroy (R := R) (ι := ι) p.du p.dl p.lambda0 p.efficacy p.eta).1
      show ERef (Ens.get i) any (geoffroy (R.members ι) (p.du.shared ι) (p.dl.shared ι) (p.lambda0.shared ι)
        (p.efficacy.shared ι) (p.eta.shared ι) >>= _) (geoffroy R p.du p.dl p.lambda0 p.efficacy p.eta >>= _)
      rw [hgh]
      cases geoffroy R p.du p.dl p.lambda0 p.efficacy p.eta with
      | error er => exact ERef.err _
      | ok gh =>
        show ERef (Ens.get i) any (Qty.nsub (R.members ι) (Arith.ofNat 1) (gh.phi1.shared ι) >>= _)
          (Qty.nsub R (Arith.ofNat 1) gh.phi1 >>= _)
        rw [(shared_nsub (R := R) (ι := ι) 1 gh.phi1).1]
        cases Qty.nsub R (Arith.ofNat 1) gh.phi1 with
        | error er => exact ERef.err _
        | ok x1 =>
          show ERef (Ens.get i) any (Qty.nsub (R.members ι) (Arith.ofNat 1) (gh.phi2.shared ι) >>= _)
            (Qty.nsub R (Arith.ofNat 1) gh.phi2 >>= _)
          rw [(shared_nsub (R := R) (ι := ι) 1 gh.phi2).1]
          cases Qty.nsub R (Arith.ofNat 1) gh.phi2 with
          | error er => exact ERef.err _
          | ok x2 =>
            have ha := eref_add (R := R) i ((x1.shared ι).mul ⟨t1, R.degC⟩) ((x2.shared ι).mul ⟨t2, R.degC⟩)
            rw [mul_member, mul_member] at ha
            show ERef (Ens.get i) any (Qty.add (R.members ι) ((x1.shared ι).mul ⟨t1, R.degC⟩)
              ((x2.shared ι).mul ⟨t2, R.degC⟩) >>= _) (Qty.add R (x1.mul ⟨t1.get i, R.degC⟩) (x2.mul ⟨t2.get i, R.degC⟩) >>= _)
            refine ERef.bind (g' := Ens.get i) (Q' := any) ha fun s _ => ?_
            by_cases hu : ((p.eta.muln (e - Arith.ofNat 1)).mul (s.member i)).unit = R.wm2
            · have hu' : (((p.shared ι).eta.muln (.one e - Arith.ofNat 1)).mul s).unit = (R.members ι).wm2 := hu
              have hu'' : ((p.eta.muln ((Ens.one e : Ens ι α).get i - Arith.ofNat 1)).mul (s.member i)).unit = R.wm2 := hu
              simp only [hu'', hu', if_true]
              refine ERef.pure ?_ trivial
              simp only [Qty.mul, Qty.muln, Ens.get_mul, Ens.get_sub, Ens.get_add]; rfl
            · have hu' : ¬ (((p.shared ι).eta.muln (.one e - Arith.ofNat 1)).mul s).unit = (R.members ι).wm2 := hu
              have hu'' : ¬ ((p.eta.muln ((Ens.one e : Ens ι α).get i - Arith.ofNat 1)).mul (s.member i)).unit = R.wm2 := hu
              simp only [hu'', hu', if_false]
              exact ERef.err _

theorem shared_arg {v : Arg N α} {q : Qty N (Ens ι α)} (h : v.shared ι = .qty q) : q.IsShared := by
  cases v with
  | bare => cases h
  | qty q0 => cases h; exact ⟨_, rfl⟩
theorem magIn_isShared {q : Qty N (Ens ι α)} (h : q.IsShared) (u : Units N) : ∃ x, q.magIn (R.members ι) u = .one x := by
  obtain ⟨x, hx⟩ := h
  unfold Qty.magIn
  split
  · exact ⟨x, hx⟩
  · rw [hx]; exact ⟨_, rfl⟩
theorem member_shared (v : Arg N α) : (v.shared ι).member i = v := by cases v <;> rfl

theorem sim_setQ1 (v : Arg N α) :
    Sim Uni (member i) (id : Unit → Unit) any (setQ1 (R.members ι) (v.shared ι)) (setQ1 R v) := by
  have := eref_checkQty (R := R) i (v.shared ι) "q1" R.cwm2
  rw [member_shared] at this
  refine Sim.bind (Sim.lift this) fun q hq => Sim.modify (fun m => ?_) fun m h =>
    { h with q1 := shared_arg hq, q1Mag := magIn_isShared (shared_arg hq) _ }
  simp only [member, magIn_member]; rfl
theorem sim_setQ2 (v : Arg N α) :
    Sim Uni (member i) (id : Unit → Unit) any (setQ2 (R.members ι) (v.shared ι)) (setQ2 R v) := by
  have := eref_checkQty (R := R) i (v.shared ι) "q2" R.cwm2
  rw [member_shared] at this
  refine Sim.bind (Sim.lift this) fun q hq => Sim.modify (fun m => ?_) fun m h =>
    { h with q2 := shared_arg hq, q2Mag := magIn_isShared (shared_arg hq) _ }
  simp only [member, magIn_member]; rfl
theorem sim_setD1 (v : Arg N α) :
    Sim Uni (member i) (id : Unit → Unit) any (setD1 (R.members ι) (v.shared ι)) (setD1 R v) := by
  have := eref_checkQty (R := R) i (v.shared ι) "d1" R.yr
  rw [member_shared] at this
  refine Sim.bind (Sim.lift this) fun q hq => Sim.modify (fun m => ?_) fun m h =>
    { h with d1 := shared_arg hq, d1Mag := magIn_isShared (shared_arg hq) _ }
  simp only [member, magIn_member]; rfl
theorem sim_setD2 (v : Arg N α) :
    Sim Uni (member i) (id : Unit → Unit) any (setD2 (R.members ι) (v.shared ι)) (setD2 R v) := by
  have := eref_checkQty (R := R) i (v.shared ι) "d2" R.yr
  rw [member_shared] at this
  refine Sim.bind (Sim.lift this) fun q hq => Sim.modify (fun m => ?_) fun m h =>
    { h with d2 := shared_arg hq, d2Mag := magIn_isShared (shared_arg hq) _ }
  simp only [member, magIn_member]; rfl
theorem sim_setEfficacy (v : Arg N α) :
    Sim Uni (member i) (id : Unit → Unit) any (setEfficacy (R.members ι) (v.shared ι)) (setEfficacy R v) := by
  have := eref_checkQty (R := R) i (v.shared ι) "efficacy" R.one
  rw [member_shared] at this
  refine Sim.bind (Sim.lift this) fun q hq => Sim.modify (fun m => ?_) fun m h =>
    { h with efficacy := shared_arg hq, efficacyMag := magIn_isShared (shared_arg hq) _ }
  simp only [member, magIn_member]; rfl

theorem sim_setDeltaT (v : Arg N α) :
    Sim Uni (member i) (id : Unit → Unit) any (setDeltaT (R.members ι) (v.shared ι)) (setDeltaT R v) := by
  have := sim_coreSetDeltaT (R := R) (P := fun c => (∃ x, c.deltaTMag = .one x) ∧ c.erf.Uniform) i R.yr (v.shared ι)
    fun c q h hq => ⟨magIn_isShared (shared_arg hq) _, h.2⟩
  rw [member_shared] at this
  exact Sim.onCore (erc := Core.member i) (gs := IRM.core) (gt := IRM.core)
    (ss := fun m c => { m with core := c }) (st := fun m c => { m with core := c }) (fun _ => rfl) (fun _ _ => rfl)
    (fun _ h => ⟨h.dtMag, h.erf⟩) (fun _ _ h hc => { h with dtMag := hc.1, erf := hc.2 }) this

theorem sim_setErf (vals : List (ι → α)) (u : Units N) (hv : ∀ f ∈ vals, ∀ i, Arith.isNaN (f i) = false) :
    Sim Uni (member i) (id : Unit → Unit) any (setErf (R.members ι) (rows vals u)) (setErf R (column i vals u)) :=
  Sim.onCore (Pc := fun c => (∃ x, c.deltaTMag = .one x) ∧ c.erf.Uniform) (erc := Core.member i) (gs := IRM.core) (gt := IRM.core)
    (ss := fun m c => { m with core := c }) (st := fun m c => { m with core := c }) (fun _ => rfl) (fun _ _ => rfl)
    (fun _ h => ⟨h.dtMag, h.erf⟩) (fun _ _ h hc => { h with dtMag := hc.1, erf := hc.2 })
    (sim_coreSetErf (P := fun c => (∃ x, c.deltaTMag = .one x) ∧ c.erf.Uniform) i vals u fun _ _ h => ⟨h.1, .inr (by
      simp only [Erf.anyNaN, List.any_map, List.any_eq_false]
      intro f hf
      simp [isNaN_row (hv f hf)])⟩)

theorem sim_reset : Sim Uni (member i) (id : Unit → Unit) any (reset : Py (IRM N (Ens ι α)) Unit) reset := by
  refine Sim.bind Sim.get fun m hm => ?_
  refine Sim.ite (by rw [show (m.member i).core.erf = m.core.erf.member i from rfl, hm.erf.anyNaN i]) (Sim.throw _) ?_
  have e : (m.member i).core.erfMag = m.core.erfMag.map (List.map (Ens.get i)) := rfl
  rw [e]
  cases m.core.erfMag with
  | none => exact Sim.bind (Sim.modify (fun m => rfl) fun _ h => { h with }) fun _ _ => Sim.throw _
  | some l =>
    refine Sim.modify (fun m => ?_) fun _ h => { h with }
    simp only [member, nanLike_member]

theorem sim_step : Sim Uni (member i) (id : Unit → Unit) any (step (R.members ι) : Py (IRM N (Ens ι α)) Unit) (step R) := by
  refine Sim.bind Sim.get fun m0 _ => ?_
  refine Sim.bind (Sim.modify (fun m => rfl) fun _ h => { h with }) fun _ _ => ?_
  refine Sim.bind Sim.get fun m hm => ?_
  have e : nextIdx (m0.member i).idx = nextIdx m0.idx := rfl
  rw [e]
  cases nextIdx m0.idx with
  | zero =>
    refine Sim.bind (Sim.lift (eref_setAt i _ _ _ rfl)) fun tu _ => ?_
    refine Sim.bind (Sim.modify (fun m => rfl) fun _ h => { h with }) fun _ _ => ?_
    refine Sim.bind (Sim.lift (eref_setAt i _ _ _ rfl)) fun tl _ => ?_
    refine Sim.bind (Sim.modify (fun m => rfl) fun _ h => { h with }) fun _ _ => ?_
    refine Sim.bind (Sim.lift (eref_setAt i _ _ _ rfl)) fun rndt _ => Sim.modify (fun m => rfl) fun _ h => { h with }
  | succ j =>
    refine Sim.bind (Sim.lift (eref_getAt i _ _)) fun t1Prev _ => ?_
    refine Sim.bind (Sim.lift (eref_erfAt i _ _)) fun erf _ => ?_
    refine Sim.bind (Sim.lift (eref_calcNextTemp i hm.dtMag hm.d1Mag _ _ _)) fun x _ => ?_
    refine Sim.bind (Sim.lift (eref_setAt i _ _ _ rfl)) fun t1 _ => ?_
    refine Sim.bind (Sim.modify (fun m => rfl) fun _ h => { h with }) fun _ _ => ?_
    refine Sim.bind Sim.get fun m hm => ?_
    refine Sim.bind (Sim.lift (eref_getAt i _ _)) fun t2Prev _ => ?_
    refine Sim.bind (Sim.lift (eref_erfAt i _ _)) fun erf _ => ?_
    refine Sim.bind (Sim.lift (eref_calcNextTemp i hm.dtMag hm.d2Mag _ _ _)) fun x _ => ?_
    refine Sim.bind (Sim.lift (eref_setAt i _ _ _ rfl)) fun t2 _ => ?_
    refine Sim.bind (Sim.modify (fun m => rfl) fun _ h => { h with }) fun _ _ => ?_
    refine Sim.bind Sim.get fun m hm => ?_
    refine Sim.bind (Sim.lift (eref_getAt i _ _)) fun t1Prev _ => ?_
    refine Sim.bind (Sim.lift (eref_getAt i _ _)) fun t2Prev _ => ?_
    refine Sim.bind (Sim.lift (eref_erfAt i _ _)) fun erf _ => ?_
    refine Sim.bind (Sim.lift (eref_calcNextRndt i hm _ _ _ hm.efficacyMag)) fun z _ => ?_
    refine Sim.bind (Sim.lift (eref_setAt i _ _ _ rfl)) fun rndt _ => Sim.modify (fun m => rfl) fun _ h => { h with }

theorem sim_run : Sim Uni (member i) (id : Unit → Unit) any (run (R.members ι) : Py (IRM N (Ens ι α)) Unit) (run R) := by
  refine Sim.bind Sim.get fun m _ => ?_
  rw [show (m.member i).core.erf.length = m.core.erf.length from length_member i _]
  exact Sim.times (sim_step i) _

theorem sim_call [DecidableEq α] (op : EnsOp N ι α) (h : op.complete) :
    Sim Uni (member i) (id : Unit → Unit) any (call (R.members ι) op.op) (call R (op.member i)) := by
  cases op with
  | setQ1 v => exact sim_setQ1 i v
  | setQ2 v => exact sim_setQ2 i v
  | setD1 v => exact sim_setD1 i v
  | setD2 v => exact sim_setD2 i v
  | setEfficacy v => exact sim_setEfficacy i v
  | setDeltaT v => exact sim_setDeltaT i v
  | setErf vals u => exact sim_setErf i vals u h
  | reset => exact sim_reset i
  | step => exact sim_step i
  | run => exact sim_run i

theorem eref_init (x : Args N α) : ERef (member i) Uni (init (R.members ι) (x.shared ι)) (init R x) := by
  have hc : ∀ (v : Arg N α) (s : String) (u : Units N), ERef (Qty.member i) Qty.IsShared
      (checkQty (R.members ι) (v.shared ι) s u) (checkQty R v s u) := by
    intro v s u
    have := eref_checkQty (R := R) i (v.shared ι) s u
    rw [member_shared] at this
    exact ⟨this.1, fun q hq => shared_arg (this.2 q hq)⟩
  unfold init
  refine ERef.bind (hc _ _ _) fun q1 h1 => ?_
  refine ERef.bind (hc _ _ _) fun q2 h2 => ?_
  refine ERef.bind (hc _ _ _) fun d1 h3 => ?_
  refine ERef.bind (hc _ _ _) fun d2 h4 => ?_
  refine ERef.bind (hc _ _ _) fun e h5 => ?_
  refine ERef.bind (hc _ _ _) fun d h6 => ?_
  refine ERef.bind (g := id) (Q := any) ⟨?_, fun _ _ => trivial⟩ fun b _ => ?_
  · have := shared_ge (R := R) (ι := ι) (d1.member i) (d2.member i)
    rw [← h3.eq i, ← h4.eq i] at this
    rw [this]
    cases (d1.member i).ge R (d2.member i) <;> rfl
  · cases b
    · refine ERef.pure ?_ ⟨h1, magIn_isShared h1 _, h2, magIn_isShared h2 _, h3, magIn_isShared h3 _, h4,
        magIn_isShared h4 _, h5, magIn_isShared h5 _, magIn_isShared h6 _, .inl rfl⟩
      simp only [member, Core.member, magIn_member, Option.map_none, Erf.member]; rfl
    · exact ERef.err _
end IRM
end TwoLayer
