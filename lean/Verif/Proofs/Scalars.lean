import Verif.Spec.Scalars

/-!
# Erasing the kind of scalars commutes with the model
-/

set_option linter.unusedSimpArgs false
set_option linter.unusedSectionVars false

namespace TwoLayer

/-- `y` is what `x` computes with kinds erased, unless `y` is an exception that may depend on kinds -/
def Ref {A B : Type} (g : A → B) (x : Except Err A) (y : Except Err B) : Prop :=
  (∃ e, y = .error e ∧ e.kind) ∨ y = x.map g

namespace Ref
variable {A B A' B' : Type} {g : A → B} {g' : A' → B'}

theorem pure {a : A} {b : B} (h : g a = b) : Ref g (.ok a) (.ok b) := by subst h; exact .inr rfl
theorem err (e : Err) : Ref g (.error e) (.error e) := .inr rfl
theorem bind {x : Except Err A} {y : Except Err B} {f : A → Except Err A'} {k : B → Except Err B'} (h : Ref g x y)
    (hf : ∀ a, Ref g' (f a) (k (g a))) : Ref g' (x >>= f) (y >>= k) := by
  rcases h with ⟨e, rfl, he⟩ | rfl
  · exact .inl ⟨e, rfl, he⟩
  · cases x with
    | error e => exact .inr rfl
    | ok a => exact hf a
end Ref

/-- the same for methods -/
def PRef {σ τ A B : Type} (er : σ → τ) (g : A → B) (x : Py σ A) (y : Py τ B) : Prop :=
  ∀ s, (∃ e, (y (er s)).2 = .error e ∧ e.kind) ∨ y (er s) = (er (x s).1, (x s).2.map g)

namespace PRef
variable {σ τ A B A' B' : Type} {er : σ → τ} {g : A → B} {g' : A' → B'}

theorem pure {a : A} {b : B} (h : g a = b) : PRef er g (Pure.pure a) (Pure.pure b) := by
  subst h; intro s; exact .inr rfl
theorem throw (e : Err) : PRef er g (Py.throw e) (Py.throw e) := fun _ => .inr rfl
theorem lift {x : Except Err A} {y : Except Err B} (h : Ref g x y) : PRef er g (Py.lift x) (Py.lift y) := by
  intro s
  rcases h with h | rfl
  · exact .inl h
  · exact .inr rfl
theorem get : PRef er er Py.get Py.get := fun _ => .inr rfl
theorem modify {f : σ → σ} {k : τ → τ} (h : ∀ s, er (f s) = k (er s)) : PRef er (id : Unit → Unit) (Py.modify f) (Py.modify k) := by
  intro s; refine .inr ?_
  simp [Except.map, h]
theorem bind {x : Py σ A} {y : Py τ B} {f : A → Py σ A'} {k : B → Py τ B'} (h : PRef er g x y)
    (hf : ∀ a, PRef er g' (f a) (k (g a))) : PRef er g' (x >>= f) (y >>= k) := by
  intro s
  simp only [Py.bind_apply]
  rcases hx : x s with ⟨s', r⟩
  rcases hy : y (er s) with ⟨t', r'⟩
  have h := h s
  rw [hx, hy] at h
  simp only [Prod.mk.injEq] at h
  rcases h with ⟨e, rfl, he⟩ | ⟨rfl, rfl⟩
  · exact .inl ⟨e, rfl, he⟩
  · cases r with
    | error e => exact .inr rfl
    | ok a => exact hf a s'
theorem onCore {κ κ' : Type} {erc : κ → κ'} {gs : σ → κ} {gt : τ → κ'} {ss : σ → κ → σ} {st : τ → κ' → τ}
    (h1 : ∀ s, gt (er s) = erc (gs s)) (h2 : ∀ s c, er (ss s c) = st (er s) (erc c)) {x : Py κ A} {y : Py κ' B}
    (h : PRef erc g x y) : PRef er g (Py.onCore gs ss x) (Py.onCore gt st y) := by
  intro s
  simp only [Py.onCore, h1, h2]
  rcases h (gs s) with h | h
  · exact .inl h
  · rw [h]; exact .inr rfl
theorem times {x : Py σ Unit} {y : Py τ Unit} (h : PRef er (id : Unit → Unit) x y) (k : ℕ) :
    PRef er (id : Unit → Unit) (Py.times x k) (Py.times y k) := by
  induction k with
  | zero => exact pure rfl
  | succ k ih => exact bind h fun _ => ih
end PRef

variable {N α : Type} [Fintype N] [DecidableEq N] [Arith α] {R : Registry N α}

theorem ref_pyDiv (x y : Sc α) : Ref Sc.val (pyDiv x y) (pyDiv x.val y.val) := by
  unfold pyDiv
  have e1 : Arith.eq y (Arith.ofNat 0 : Sc α) = Arith.eq y.val (Arith.ofNat 0) := rfl
  have e2 : Arith.isPy x = (!x.np && Arith.isPy x.val) := rfl
  have e3 : Arith.isPy y = (!y.np && Arith.isPy y.val) := rfl
  rw [e1, e2, e3]
  by_cases h : (Arith.eq y.val (Arith.ofNat 0) && (Arith.isPy x.val && Arith.isPy y.val)) = true
  · rw [if_pos h]; exact .inl ⟨_, rfl, trivial⟩
  · rw [if_neg h, if_neg]
    · exact .inr rfl
    · revert h
      generalize Arith.eq y.val (Arith.ofNat 0) = b1
      generalize Arith.isPy x.val = b2
      generalize Arith.isPy y.val = b3
      cases b1 <;> cases b2 <;> cases b3 <;> simp

theorem magIn_erase (q : Qty N (Sc α)) (u : Units N) : (q.magIn R.scalars u).val = q.erase.magIn R u := by
  unfold Qty.magIn
  by_cases h : q.unit = u
  · rw [if_pos h, if_pos (show q.erase.unit = u from h)]; rfl
  · rw [if_neg h, if_neg (show ¬ q.erase.unit = u from h)]; rfl

theorem ref_toUnit (q : Qty N (Sc α)) (u : Units N) : Ref Qty.erase (q.toUnit R.scalars u) (q.erase.toUnit R u) := by
  unfold Qty.toUnit
  by_cases h : q.unit = u ∨ R.compat q.unit u = true
  · rw [if_pos (show q.erase.unit = u ∨ R.compat q.erase.unit u = true from h),
      if_pos (show q.unit = u ∨ R.scalars.compat q.unit u = true from h)]
    refine Ref.pure ?_
    simp only [Qty.erase, Qty.mk.injEq, and_true]
    exact magIn_erase q u
  · rw [if_neg (show ¬ (q.erase.unit = u ∨ R.compat q.erase.unit u = true) from h),
      if_neg (show ¬ (q.unit = u ∨ R.scalars.compat q.unit u = true) from h)]
    exact Ref.err _

theorem ref_div (p q : Qty N (Sc α)) : Ref Qty.erase (p.div q) (p.erase.div q.erase) :=
  Ref.bind (ref_pyDiv _ _) fun _ => Ref.pure rfl
theorem ref_ndiv (n : ℕ) (q : Qty N (Sc α)) : Ref Qty.erase (Qty.ndiv (Arith.ofNat n) q) (Qty.ndiv (Arith.ofNat n) q.erase) :=
  Ref.bind (ref_pyDiv (Arith.ofNat n) _) fun _ => Ref.pure rfl

theorem ref_add (p q : Qty N (Sc α)) : Ref Qty.erase (p.add R.scalars q) (p.erase.add R q.erase) := by
  unfold Qty.add
  by_cases h : q.unit = p.unit ∨ R.compat q.unit p.unit = true
  · rw [if_pos (show q.erase.unit = p.erase.unit ∨ R.compat q.erase.unit p.erase.unit = true from h),
      if_pos (show q.unit = p.unit ∨ R.scalars.compat q.unit p.unit = true from h)]
    refine Ref.pure ?_
    have := magIn_erase (R := R) q p.unit
    simp only [Qty.erase, Qty.mk.injEq, and_true] at this ⊢
    rw [← this]; rfl
  · rw [if_neg (show ¬ (q.erase.unit = p.erase.unit ∨ R.compat q.erase.unit p.erase.unit = true) from h),
      if_neg (show ¬ (q.unit = p.unit ∨ R.scalars.compat q.unit p.unit = true) from h)]
    exact Ref.err _

theorem ref_sub (p q : Qty N (Sc α)) : Ref Qty.erase (p.sub R.scalars q) (p.erase.sub R q.erase) := by
  unfold Qty.sub
  by_cases h : q.unit = p.unit ∨ R.compat q.unit p.unit = true
  · rw [if_pos (show q.erase.unit = p.erase.unit ∨ R.compat q.erase.unit p.erase.unit = true from h),
      if_pos (show q.unit = p.unit ∨ R.scalars.compat q.unit p.unit = true from h)]
    refine Ref.pure ?_
    have := magIn_erase (R := R) q p.unit
    simp only [Qty.erase, Qty.mk.injEq, and_true] at this ⊢
    rw [← this]; rfl
  · rw [if_neg (show ¬ (q.erase.unit = p.erase.unit ∨ R.compat q.erase.unit p.erase.unit = true) from h),
      if_neg (show ¬ (q.unit = p.unit ∨ R.scalars.compat q.unit p.unit = true) from h)]
    exact Ref.err _

theorem ref_nsub (n : ℕ) (q : Qty N (Sc α)) :
    Ref Qty.erase (Qty.nsub R.scalars (Arith.ofNat n) q) (Qty.nsub R (Arith.ofNat n) q.erase) := by
  unfold Qty.nsub
  by_cases h : q.unit = 0 ∨ R.compat q.unit 0 = true
  · rw [if_pos (show q.erase.unit = 0 ∨ R.compat q.erase.unit 0 = true from h),
      if_pos (show q.unit = 0 ∨ R.scalars.compat q.unit 0 = true from h)]
    refine Ref.pure ?_
    have := magIn_erase (R := R) q 0
    simp only [Qty.erase, Qty.mk.injEq, and_true] at this ⊢
    rw [← this]; rfl
  · rw [if_neg (show ¬ (q.erase.unit = 0 ∨ R.compat q.erase.unit 0 = true) from h),
      if_neg (show ¬ (q.unit = 0 ∨ R.scalars.compat q.unit 0 = true) from h)]
    exact Ref.err _

theorem ref_sqrt (q : Qty N (Sc α)) : Ref Qty.erase q.sqrt q.erase.sqrt := by
  unfold Qty.sqrt
  have e1 : Arith.lt q.mag (Arith.ofNat 0 : Sc α) = Arith.lt q.mag.val (Arith.ofNat 0) := rfl
  have e2 : Arith.isPy q.mag = (!q.mag.np && Arith.isPy q.mag.val) := rfl
  have e3 : q.erase.mag = q.mag.val := rfl
  rw [e1, e2, e3]
  by_cases h : (Arith.lt q.mag.val (Arith.ofNat 0) && Arith.isPy q.mag.val) = true
  · rw [if_pos h]; exact .inl ⟨_, rfl, trivial⟩
  · rw [if_neg h, if_neg]
    · exact .inr rfl
    · revert h
      generalize Arith.lt q.mag.val (Arith.ofNat 0) = b1
      generalize Arith.isPy q.mag.val = b2
      cases b1 <;> cases b2 <;> simp

theorem ref_ge (p q : Qty N (Sc α)) : Ref (id : Bool → Bool) (p.ge R.scalars q) (p.erase.ge R q.erase) := by
  unfold Qty.ge
  by_cases h : p.unit = q.unit
  · rw [if_pos h, if_pos (show p.erase.unit = q.erase.unit from h)]; exact Ref.pure rfl
  · rw [if_neg h, if_neg (show ¬ p.erase.unit = q.erase.unit from h)]
    by_cases h2 : R.compat p.unit q.unit = true
    · rw [if_pos (show R.scalars.compat p.unit q.unit = true from h2),
        if_pos (show R.compat p.erase.unit q.erase.unit = true from h2)]
      have a := magIn_erase (R := R) q (R.root q.unit)
      have b := magIn_erase (R := R) p (R.root p.unit)
      refine Ref.pure ?_
      show Arith.le (q.magIn R.scalars (R.root q.unit)).val (p.magIn R.scalars (R.root p.unit)).val = _
      rw [a, b]; rfl
    · rw [if_neg (show ¬ R.scalars.compat p.unit q.unit = true from h2),
        if_neg (show ¬ R.compat p.erase.unit q.erase.unit = true from h2)]
      exact Ref.err _

theorem ref_checkQty (v : Arg N (Sc α)) (s : String) (u : Units N) :
    Ref Qty.erase (checkQty R.scalars v s u) (checkQty R v.erase s u) := by
  cases v with
  | bare => exact Ref.err _
  | qty q =>
    simp only [checkQty, Arg.erase, Qty.toUnit]
    by_cases h : q.unit = u ∨ R.compat q.unit u = true
    · rw [if_pos (show q.erase.unit = u ∨ R.compat q.erase.unit u = true from h),
        if_pos (show q.unit = u ∨ R.scalars.compat q.unit u = true from h)]
      exact Ref.pure rfl
    · rw [if_neg (show ¬ (q.erase.unit = u ∨ R.compat q.erase.unit u = true) from h),
        if_neg (show ¬ (q.unit = u ∨ R.scalars.compat q.unit u = true) from h)]
      exact Ref.err _

/-! ## Geoffroy parameters and conversions -/

/-- helper parameters, kinds erased -/
def GH.erase (g : GH N (Sc α)) : GH N α :=
  ⟨g.C.erase, g.CD.erase, g.b.erase, g.bStar.erase, g.delta.erase, g.tau1.erase, g.tau2.erase, g.phi1.erase, g.phi2.erase,
    g.a1.erase, g.a2.erase⟩

theorem ref_geoffroy (du dl l e h : Qty N (Sc α)) :
    Ref GH.erase (geoffroy R.scalars du dl l e h) (geoffroy R du.erase dl.erase l.erase e.erase h.erase) := by
  unfold geoffroy
  refine Ref.bind (ref_add _ _) fun num => ?_
  refine Ref.bind (ref_div _ _) fun bPt1 => ?_
  refine Ref.bind (ref_div _ _) fun bPt2 => ?_
  refine Ref.bind (ref_add _ _) fun b => ?_
  refine Ref.bind (ref_sub _ _) fun bStar => ?_
  refine Ref.bind (ref_div _ _) fun disc => ?_
  refine Ref.bind (ref_sub _ _) fun delta => ?_
  refine Ref.bind (ref_div _ _) fun taucoeff => ?_
  refine Ref.bind (ref_sqrt _) fun root => ?_
  refine Ref.bind (ref_sub _ _) fun bMinus => ?_
  refine Ref.bind (ref_add _ _) fun bPlus => ?_
  refine Ref.bind (ref_div _ _) fun phicoeff => ?_
  refine Ref.bind (ref_sub _ _) fun bsMinus => ?_
  refine Ref.bind (ref_add _ _) fun bsPlus => ?_
  refine Ref.bind (ref_sub _ _) fun dphi => ?_
  refine Ref.bind (ref_div _ _) fun a1 => ?_
  refine Ref.bind (ref_div _ _) fun a2 => ?_
  exact Ref.pure rfl

theorem ref_getIR (m : TLM N (Sc α)) : Ref TLM.IRParams.erase (m.getImpulseResponseParameters R.scalars)
    (m.erase.getImpulseResponseParameters R) := by
  unfold TLM.getImpulseResponseParameters
  have e : Arith.eq m.a.mag (Arith.ofNat 0 : Sc α) = Arith.eq m.erase.a.mag (Arith.ofNat 0) := rfl
  rw [e]
  split
  · exact Ref.err _
  · refine Ref.bind (ref_geoffroy _ _ _ _ _) fun gh => ?_
    refine Ref.bind (ref_sub _ _) fun dphi => ?_
    refine Ref.bind (ref_div _ _) fun q1 => ?_
    refine Ref.bind (ref_div _ _) fun q2 => ?_
    exact Ref.pure rfl

theorem ref_getTL (m : IRM N (Sc α)) : Ref IRM.TLParams.erase (m.getTwoLayerParameters R.scalars)
    (m.erase.getTwoLayerParameters R) := by
  unfold IRM.getTwoLayerParameters
  refine Ref.bind (ref_add _ _) fun qsum => ?_
  refine Ref.bind (ref_ndiv _ _) fun lambda0 => ?_
  refine Ref.bind (ref_add _ _) fun cden => ?_
  refine Ref.bind (ref_div _ _) fun C => ?_
  refine Ref.bind (ref_add _ _) fun s1 => ?_
  refine Ref.bind (ref_sub _ _) fun cd0 => ?_
  refine Ref.bind (ref_div _ _) fun CD => ?_
  refine Ref.bind (ref_add _ _) fun s2 => ?_
  refine Ref.bind (ref_div _ _) fun eta => ?_
  refine Ref.bind (ref_div _ _) fun du => ?_
  refine Ref.bind (ref_div _ _) fun dl => ?_
  exact Ref.pure rfl

theorem ref_ecs (l f : Arg N (Sc α)) : Ref Qty.erase (convertLambdaToEcs l f) (convertLambdaToEcs l.erase f.erase) := by
  cases l with
  | bare => exact Ref.err _
  | qty l =>
    cases f with
    | bare => exact Ref.err _
    | qty f => exact ref_div _ _

/-! ## Methods -/

theorem PRef.ite {σ τ A B : Type} {er : σ → τ} {g : A → B} {c d : Prop} [Decidable c] [Decidable d] (h : d ↔ c) {x x' : Py σ A}
    {y y' : Py τ B} (h1 : PRef er g x y) (h2 : PRef er g x' y') :
    PRef er g (if d then x else x') (if c then y else y') := by
  by_cases hc : c
  · rw [if_pos hc, if_pos (h.2 hc)]; exact h1
  · rw [if_neg hc, if_neg (fun x => hc (h.1 x))]; exact h2

theorem magsIn_erase (l : List (Sc α)) (u v : Units N) :
    (magsIn R.scalars l u v).map Sc.val = magsIn R (l.map Sc.val) u v := by
  unfold magsIn
  rw [List.map_map, List.map_map]
  exact List.map_congr_left fun x _ => magIn_erase ⟨x, u⟩ v

theorem pref_coreSetDeltaT (u : Units N) (v : Arg N (Sc α)) :
    PRef Core.erase (id : Unit → Unit) (Core.setDeltaT R.scalars u v) (Core.setDeltaT R u v.erase) := by
  refine PRef.bind (PRef.lift (ref_checkQty v _ _)) fun q => PRef.modify fun c => ?_
  simp only [Core.erase, magIn_erase]

theorem pref_coreSetErf (v : DArg N (Sc α)) :
    PRef Core.erase (id : Unit → Unit) (Core.setErf R.scalars v) (Core.setErf R v.erase) := by
  cases v with
  | bare a => exact PRef.throw _
  | qty a u =>
    refine PRef.ite (Iff.rfl : _ ↔ (u = R.wm2 ∨ R.compat u R.wm2 = true)) (PRef.modify fun c => ?_) (PRef.throw _)
    simp only [Core.erase, Erf.erase, Arr.erase, Option.map_some, magsIn_erase]; rfl

theorem pref_coreSetDrivers (v : DArg N (Sc α)) :
    PRef Core.erase (id : Unit → Unit) (Core.setDrivers R.scalars v) (Core.setDrivers R v.erase) := by
  cases v with
  | bare a => exact PRef.ite (Iff.rfl : _ ↔ (a.ndim ≠ 1)) (PRef.throw _) (pref_coreSetErf _)
  | qty a u => exact PRef.ite (Iff.rfl : _ ↔ (a.ndim ≠ 1)) (PRef.throw _) (pref_coreSetErf _)

theorem ref_getAt (l : List (Sc α)) (i : ℕ) : Ref Sc.val (getAt l i) (getAt (l.map Sc.val) i) := by
  unfold getAt
  rw [List.getElem?_map]
  cases l[i]? with
  | none => exact Ref.err _
  | some x => exact Ref.pure rfl

theorem ref_setAt (l : List (Sc α)) (i : ℕ) (x : Sc α) {y : α} (h : x.val = y) :
    Ref (List.map Sc.val) (setAt l i x) (setAt (l.map Sc.val) i y) := by
  subst h
  unfold setAt
  rw [List.length_map]
  by_cases h : i < l.length
  · rw [if_pos h, if_pos h]; exact Ref.pure (List.map_set ..)
  · rw [if_neg h, if_neg h]; exact Ref.err _

theorem ref_erfAt (c : Core N (Sc α)) (i : ℕ) : Ref Sc.val (c.erfAt i) (c.erase.erfAt i) := by
  unfold Core.erfAt
  rcases c with ⟨_, _, _, _ | l⟩
  · exact Ref.err _
  · exact ref_getAt l i

theorem anyNaN_erase (e : Erf N (Sc α)) : e.erase.anyNaN = e.anyNaN := by
  cases e with
  | unset => rfl
  | set l u => simp only [Erf.erase, Erf.anyNaN, List.any_map]; rfl
theorem length_erase (e : Erf N (Sc α)) : e.erase.length = e.length := by
  cases e with
  | unset => rfl
  | set l u => simp only [Erf.erase, Erf.length, List.length_map]
theorem nanLike_erase (l : List (Sc α)) : (nanLike l).map Sc.val = nanLike (l.map Sc.val) := by
  simp only [nanLike, List.map_map]; rfl

namespace TLM
theorem pref_setDu (v : Arg N (Sc α)) : PRef erase (id : Unit → Unit) (setDu R.scalars v) (setDu R v.erase) := by
  refine PRef.bind (PRef.lift (ref_checkQty v _ _)) fun q => ?_
  refine PRef.bind (PRef.modify fun m => rfl) fun _ => ?_
  refine PRef.bind (PRef.modify fun m => ?_) fun _ => ?_
  · simp only [erase, magIn_erase]; rfl
  refine PRef.bind PRef.get fun m => ?_
  refine PRef.bind (PRef.lift (ref_toUnit _ _)) fun h => PRef.modify fun m => rfl
theorem pref_setDl (v : Arg N (Sc α)) : PRef erase (id : Unit → Unit) (setDl R.scalars v) (setDl R v.erase) := by
  refine PRef.bind (PRef.lift (ref_checkQty v _ _)) fun q => ?_
  refine PRef.bind (PRef.modify fun m => rfl) fun _ => ?_
  refine PRef.bind (PRef.modify fun m => ?_) fun _ => ?_
  · simp only [erase, magIn_erase]; rfl
  refine PRef.bind PRef.get fun m => ?_
  refine PRef.bind (PRef.lift (ref_toUnit _ _)) fun h => PRef.modify fun m => rfl
theorem pref_setLambda0 (v : Arg N (Sc α)) : PRef erase (id : Unit → Unit) (setLambda0 R.scalars v) (setLambda0 R v.erase) := by
  refine PRef.bind (PRef.lift (ref_checkQty v _ _)) fun q => PRef.modify fun m => ?_
  simp only [erase, magIn_erase]; rfl
theorem pref_setA (v : Arg N (Sc α)) : PRef erase (id : Unit → Unit) (setA R.scalars v) (setA R v.erase) := by
  refine PRef.bind (PRef.lift (ref_checkQty v _ _)) fun q => PRef.modify fun m => ?_
  simp only [erase, magIn_erase]; rfl
theorem pref_setEfficacy (v : Arg N (Sc α)) : PRef erase (id : Unit → Unit) (setEfficacy R.scalars v) (setEfficacy R v.erase) := by
  refine PRef.bind (PRef.lift (ref_checkQty v _ _)) fun q => PRef.modify fun m => ?_
  simp only [erase, magIn_erase]; rfl
theorem pref_setEta (v : Arg N (Sc α)) : PRef erase (id : Unit → Unit) (setEta R.scalars v) (setEta R v.erase) := by
  refine PRef.bind (PRef.lift (ref_checkQty v _ _)) fun q => PRef.modify fun m => ?_
  simp only [erase, magIn_erase]; rfl
theorem pref_setDeltaT (v : Arg N (Sc α)) : PRef erase (id : Unit → Unit) (setDeltaT R.scalars v) (setDeltaT R v.erase) :=
  PRef.onCore (erc := Core.erase) (gs := TLM.core) (gt := TLM.core) (ss := fun m c => { m with core := c }) (st := fun m c => { m with core := c }) (fun _ => rfl) (fun _ _ => rfl) (pref_coreSetDeltaT _ v)
theorem pref_setErf (v : DArg N (Sc α)) : PRef erase (id : Unit → Unit) (setErf R.scalars v) (setErf R v.erase) :=
  PRef.onCore (erc := Core.erase) (gs := TLM.core) (gt := TLM.core) (ss := fun m c => { m with core := c }) (st := fun m c => { m with core := c }) (fun _ => rfl) (fun _ _ => rfl) (pref_coreSetErf v)
theorem pref_setDrivers (v : DArg N (Sc α)) : PRef erase (id : Unit → Unit) (setDrivers R.scalars v) (setDrivers R v.erase) :=
  PRef.onCore (erc := Core.erase) (gs := TLM.core) (gt := TLM.core) (ss := fun m c => { m with core := c }) (st := fun m c => { m with core := c }) (fun _ => rfl) (fun _ _ => rfl) (pref_coreSetDrivers v)

theorem pref_reset : PRef erase (id : Unit → Unit) (reset : Py (TLM N (Sc α)) Unit) reset := by
  refine PRef.bind PRef.get fun m => ?_
  refine PRef.ite (by rw [show m.erase.core.erf = m.core.erf.erase from rfl, anyNaN_erase]) (PRef.throw _) ?_
  have e : m.erase.core.erfMag = m.core.erfMag.map (List.map Sc.val) := rfl
  rw [e]
  cases m.core.erfMag with
  | none => exact PRef.bind (PRef.modify fun m => rfl) fun _ => PRef.throw _
  | some l =>
    refine PRef.modify fun m => ?_
    simp only [erase, nanLike_erase]

theorem pref_step : PRef erase (id : Unit → Unit) (step : Py (TLM N (Sc α)) Unit) step := by
  refine PRef.bind PRef.get fun m0 => ?_
  refine PRef.bind (PRef.modify fun m => rfl) fun _ => ?_
  refine PRef.bind PRef.get fun m => ?_
  have e : nextIdx m0.erase.idx = nextIdx m0.idx := rfl
  rw [e]
  cases nextIdx m0.idx with
  | zero =>
    refine PRef.bind (PRef.lift (ref_setAt _ _ _ rfl)) fun tu => ?_
    refine PRef.bind (PRef.modify fun m => rfl) fun _ => ?_
    refine PRef.bind (PRef.lift (ref_setAt _ _ _ rfl)) fun tl => ?_
    refine PRef.bind (PRef.modify fun m => rfl) fun _ => ?_
    refine PRef.bind (PRef.lift (ref_setAt _ _ _ rfl)) fun rndt => PRef.modify fun m => rfl
  | succ j =>
    refine PRef.bind (PRef.lift (ref_getAt _ _)) fun tuPrev => ?_
    refine PRef.bind (PRef.lift (ref_getAt _ _)) fun tlPrev => ?_
    refine PRef.bind (PRef.lift (ref_erfAt _ _)) fun erf => ?_
    refine PRef.bind (PRef.lift (ref_setAt _ _ _ rfl)) fun tu => ?_
    refine PRef.bind (PRef.modify fun m => rfl) fun _ => ?_
    refine PRef.bind PRef.get fun m => ?_
    refine PRef.bind (PRef.lift (ref_getAt _ _)) fun tlPrev => ?_
    refine PRef.bind (PRef.lift (ref_getAt _ _)) fun tuPrev => ?_
    refine PRef.bind (PRef.lift (ref_setAt _ _ _ rfl)) fun tl => ?_
    refine PRef.bind (PRef.modify fun m => rfl) fun _ => ?_
    refine PRef.bind PRef.get fun m => ?_
    refine PRef.bind (PRef.lift (ref_getAt _ _)) fun tlNow => ?_
    refine PRef.bind (PRef.lift (ref_getAt _ _)) fun tlPrev => ?_
    refine PRef.bind (PRef.lift (ref_getAt _ _)) fun tuNow => ?_
    refine PRef.bind (PRef.lift (ref_getAt _ _)) fun tuPrev => ?_
    refine PRef.bind (PRef.lift (ref_setAt _ _ _ rfl)) fun rndt => PRef.modify fun m => rfl

theorem pref_run : PRef erase (id : Unit → Unit) (run : Py (TLM N (Sc α)) Unit) run := by
  refine PRef.bind PRef.get fun m => ?_
  rw [show m.erase.core.erf.length = m.core.erf.length from length_erase _]
  exact PRef.times pref_step _

theorem ref_init (x : Args N (Sc α)) : Ref erase (init R.scalars x) (init R x.erase) := by
  unfold init
  refine Ref.bind (ref_checkQty _ _ _) fun du => ?_
  refine Ref.bind (ref_toUnit _ _) fun hcu => ?_
  refine Ref.bind (ref_checkQty _ _ _) fun dl => ?_
  refine Ref.bind (ref_toUnit _ _) fun hcl => ?_
  refine Ref.bind (ref_checkQty _ _ _) fun l => ?_
  refine Ref.bind (ref_checkQty _ _ _) fun a => ?_
  refine Ref.bind (ref_checkQty _ _ _) fun e => ?_
  refine Ref.bind (ref_checkQty _ _ _) fun h => ?_
  refine Ref.bind (ref_checkQty _ _ _) fun d => ?_
  refine Ref.pure ?_
  simp only [erase, Core.erase, magIn_erase, Option.map_none, Erf.erase]; rfl
end TLM

namespace IRM
theorem pref_setQ1 (v : Arg N (Sc α)) : PRef erase (id : Unit → Unit) (setQ1 R.scalars v) (setQ1 R v.erase) := by
  refine PRef.bind (PRef.lift (ref_checkQty v _ _)) fun q => PRef.modify fun m => ?_
  simp only [erase, magIn_erase]; rfl
theorem pref_setQ2 (v : Arg N (Sc α)) : PRef erase (id : Unit → Unit) (setQ2 R.scalars v) (setQ2 R v.erase) := by
  refine PRef.bind (PRef.lift (ref_checkQty v _ _)) fun q => PRef.modify fun m => ?_
  simp only [erase, magIn_erase]; rfl
theorem pref_setD1 (v : Arg N (Sc α)) : PRef erase (id : Unit → Unit) (setD1 R.scalars v) (setD1 R v.erase) := by
  refine PRef.bind (PRef.lift (ref_checkQty v _ _)) fun q => PRef.modify fun m => ?_
  simp only [erase, magIn_erase]; rfl
theorem pref_setD2 (v : Arg N (Sc α)) : PRef erase (id : Unit → Unit) (setD2 R.scalars v) (setD2 R v.erase) := by
  refine PRef.bind (PRef.lift (ref_checkQty v _ _)) fun q => PRef.modify fun m => ?_
  simp only [erase, magIn_erase]; rfl
theorem pref_setEfficacy (v : Arg N (Sc α)) : PRef erase (id : Unit → Unit) (setEfficacy R.scalars v) (setEfficacy R v.erase) := by
  refine PRef.bind (PRef.lift (ref_checkQty v _ _)) fun q => PRef.modify fun m => ?_
  simp only [erase, magIn_erase]; rfl
theorem pref_setDeltaT (v : Arg N (Sc α)) : PRef erase (id : Unit → Unit) (setDeltaT R.scalars v) (setDeltaT R v.erase) :=
  PRef.onCore (erc := Core.erase) (gs := IRM.core) (gt := IRM.core) (ss := fun m c => { m with core := c }) (st := fun m c => { m with core := c }) (fun _ => rfl) (fun _ _ => rfl) (pref_coreSetDeltaT _ v)
theorem pref_setErf (v : DArg N (Sc α)) : PRef erase (id : Unit → Unit) (setErf R.scalars v) (setErf R v.erase) :=
  PRef.onCore (erc := Core.erase) (gs := IRM.core) (gt := IRM.core) (ss := fun m c => { m with core := c }) (st := fun m c => { m with core := c }) (fun _ => rfl) (fun _ _ => rfl) (pref_coreSetErf v)
theorem pref_setDrivers (v : DArg N (Sc α)) : PRef erase (id : Unit → Unit) (setDrivers R.scalars v) (setDrivers R v.erase) :=
  PRef.onCore (erc := Core.erase) (gs := IRM.core) (gt := IRM.core) (ss := fun m c => { m with core := c }) (st := fun m c => { m with core := c }) (fun _ => rfl) (fun _ _ => rfl) (pref_coreSetDrivers v)

theorem pref_reset : PRef erase (id : Unit → Unit) (reset : Py (IRM N (Sc α)) Unit) reset := by
  refine PRef.bind PRef.get fun m => ?_
  refine PRef.ite (by rw [show m.erase.core.erf = m.core.erf.erase from rfl, anyNaN_erase]) (PRef.throw _) ?_
  have e : m.erase.core.erfMag = m.core.erfMag.map (List.map Sc.val) := rfl
  rw [e]
  cases m.core.erfMag with
  | none => exact PRef.bind (PRef.modify fun m => rfl) fun _ => PRef.throw _
  | some l =>
    refine PRef.modify fun m => ?_
    simp only [erase, nanLike_erase]

theorem ref_calcNextTemp (dt t q d f : Sc α) :
    Ref Sc.val (calcNextTemp dt t q d f) (calcNextTemp dt.val t.val q.val d.val f.val) := by
  unfold calcNextTemp
  refine Ref.bind (ref_pyDiv (-dt) d) fun x => ?_
  refine Ref.bind (ref_pyDiv (-dt) d) fun y => ?_
  exact Ref.pure rfl

theorem ref_calcNextRndt (m : IRM N (Sc α)) (t1 t2 f e : Sc α) :
    Ref Sc.val (m.calcNextRndt R.scalars t1 t2 f e) (m.erase.calcNextRndt R t1.val t2.val f.val e.val) := by
  unfold calcNextRndt
  refine Ref.bind (ref_getTL m) fun p => ?_
  have h1 : Arith.eq e (Arith.ofNat 1 : Sc α) = Arith.eq e.val (Arith.ofNat 1) := rfl
  rw [h1]
  by_cases he : Arith.eq e.val (Arith.ofNat 1) = true
  · rw [if_pos he, if_pos he]; exact Ref.pure rfl
  · rw [if_neg he, if_neg he]
    refine Ref.bind (ref_geoffroy _ _ _ _ _) fun gh => ?_
    refine Ref.bind (ref_nsub _ _) fun x1 => ?_
    refine Ref.bind (ref_nsub _ _) fun x2 => ?_
    refine Ref.bind (ref_add _ _) fun s => ?_
    by_cases hu : ((p.eta.muln (e - Arith.ofNat 1)).mul s).unit = R.wm2
    · have hu' : ((p.erase.eta.muln (e.val - Arith.ofNat 1)).mul s.erase).unit = R.wm2 := hu
      have hu'' : ((p.eta.muln (e - Arith.ofNat 1)).mul s).unit = R.scalars.wm2 := hu
      simp only [hu', hu'', if_true]
      exact Ref.pure rfl
    · have hu' : ¬ ((p.erase.eta.muln (e.val - Arith.ofNat 1)).mul s.erase).unit = R.wm2 := hu
      have hu'' : ¬ ((p.eta.muln (e - Arith.ofNat 1)).mul s).unit = R.scalars.wm2 := hu
      simp only [hu', hu'', if_false]
      exact Ref.err _

theorem pref_step : PRef erase (id : Unit → Unit) (step R.scalars : Py (IRM N (Sc α)) Unit) (step R) := by
  refine PRef.bind PRef.get fun m0 => ?_
  refine PRef.bind (PRef.modify fun m => rfl) fun _ => ?_
  refine PRef.bind PRef.get fun m => ?_
  have e : nextIdx m0.erase.idx = nextIdx m0.idx := rfl
  rw [e]
  cases nextIdx m0.idx with
  | zero =>
    refine PRef.bind (PRef.lift (ref_setAt _ _ _ rfl)) fun tu => ?_
    refine PRef.bind (PRef.modify fun m => rfl) fun _ => ?_
    refine PRef.bind (PRef.lift (ref_setAt _ _ _ rfl)) fun tl => ?_
    refine PRef.bind (PRef.modify fun m => rfl) fun _ => ?_
    refine PRef.bind (PRef.lift (ref_setAt _ _ _ rfl)) fun rndt => PRef.modify fun m => rfl
  | succ j =>
    refine PRef.bind (PRef.lift (ref_getAt _ _)) fun t1Prev => ?_
    refine PRef.bind (PRef.lift (ref_erfAt _ _)) fun erf => ?_
    refine PRef.bind (PRef.lift (ref_calcNextTemp _ _ _ _ _)) fun x => ?_
    refine PRef.bind (PRef.lift (ref_setAt _ _ _ rfl)) fun t1 => ?_
    refine PRef.bind (PRef.modify fun m => rfl) fun _ => ?_
    refine PRef.bind PRef.get fun m => ?_
    refine PRef.bind (PRef.lift (ref_getAt _ _)) fun t2Prev => ?_
    refine PRef.bind (PRef.lift (ref_erfAt _ _)) fun erf => ?_
    refine PRef.bind (PRef.lift (ref_calcNextTemp _ _ _ _ _)) fun x => ?_
    refine PRef.bind (PRef.lift (ref_setAt _ _ _ rfl)) fun t2 => ?_
    refine PRef.bind (PRef.modify fun m => rfl) fun _ => ?_
    refine PRef.bind PRef.get fun m => ?_
    refine PRef.bind (PRef.lift (ref_getAt _ _)) fun t1Prev => ?_
    refine PRef.bind (PRef.lift (ref_getAt _ _)) fun t2Prev => ?_
    refine PRef.bind (PRef.lift (ref_erfAt _ _)) fun erf => ?_
    refine PRef.bind (PRef.lift (ref_calcNextRndt _ _ _ _ _)) fun z => ?_
    refine PRef.bind (PRef.lift (ref_setAt _ _ _ rfl)) fun rndt => PRef.modify fun m => rfl

theorem pref_run : PRef erase (id : Unit → Unit) (run R.scalars : Py (IRM N (Sc α)) Unit) (run R) := by
  refine PRef.bind PRef.get fun m => ?_
  rw [show m.erase.core.erf.length = m.core.erf.length from length_erase _]
  exact PRef.times pref_step _

theorem ref_init (x : Args N (Sc α)) : Ref erase (init R.scalars x) (init R x.erase) := by
  unfold init
  refine Ref.bind (ref_checkQty _ _ _) fun q1 => ?_
  refine Ref.bind (ref_checkQty _ _ _) fun q2 => ?_
  refine Ref.bind (ref_checkQty _ _ _) fun d1 => ?_
  refine Ref.bind (ref_checkQty _ _ _) fun d2 => ?_
  refine Ref.bind (ref_checkQty _ _ _) fun e => ?_
  refine Ref.bind (ref_checkQty _ _ _) fun d => ?_
  refine Ref.bind (ref_ge _ _) fun b => ?_
  cases b
  · refine Ref.pure ?_
    simp only [erase, Core.erase, magIn_erase, Option.map_none, Erf.erase]; rfl
  · exact Ref.err _
end IRM

/-! ## `run_scenarios` -/

/-- metadata, kinds erased -/
def Meta.erase (m : Meta (Sc α)) : Meta α := m.map fun kv => (kv.1, kv.2.erase)

theorem Meta.get_erase (k : String) (m : Meta (Sc α)) : Meta.get k m.erase = (Meta.get k m).map MVal.erase := by
  induction m with
  | nil => rfl
  | cons kv m ih =>
    show (if kv.1 = k then some kv.2.erase else Meta.get k (Meta.erase m)) = (if kv.1 = k then some kv.2 else Meta.get k m).map _
    by_cases h : kv.1 = k
    · rw [if_pos h, if_pos h]; rfl
    · rw [if_neg h, if_neg h, ih]

theorem Meta.set_erase (k : String) (v : MVal (Sc α)) (m : Meta (Sc α)) :
    Meta.erase (Meta.set k v m) = Meta.set k v.erase m.erase := by
  induction m with
  | nil => rfl
  | cons kv m ih =>
    show Meta.erase (if kv.1 = k then (k, v) :: m else (kv.1, kv.2) :: Meta.set k v m) =
      (if kv.1 = k then (k, v.erase) :: Meta.erase m else (kv.1, kv.2.erase) :: Meta.set k v.erase (Meta.erase m))
    by_cases h : kv.1 = k
    · rw [if_pos h, if_pos h]; rfl
    · rw [if_neg h, if_neg h, ← ih]; rfl

theorem Row.info_erase (r : Row (Sc α)) : r.erase.info = Meta.erase r.info := rfl

theorem annotate_erase (name : String) (ps m : Meta (Sc α)) :
    Meta.erase (annotate name ps m) = annotate name ps.erase m.erase := by
  have h : ∀ (ps m : Meta (Sc α)), Meta.erase (ps.foldl (fun m kv => m.set kv.1 kv.2) m) =
      (Meta.erase ps).foldl (fun m kv => m.set kv.1 kv.2) m.erase := by
    intro ps
    induction ps with
    | nil => intro m; rfl
    | cons kv ps ih =>
      intro m
      show Meta.erase (ps.foldl _ (m.set kv.1 kv.2)) = _
      rw [ih, Meta.set_erase]; rfl
  unfold annotate
  rw [h, Meta.set_erase]; rfl

theorem dropna_erase (l : List (Sc α)) : (dropna l).map Sc.val = dropna (l.map Sc.val) := by
  unfold dropna
  rw [List.filter_map]; rfl

theorem scatter_erase (l v : List (Sc α)) : (scatter l v).map Sc.val = scatter (l.map Sc.val) (v.map Sc.val) := by
  induction l generalizing v with
  | nil => rfl
  | cons d l ih =>
    have e : Arith.isNaN d = Arith.isNaN d.val := rfl
    cases v with
    | nil =>
      simp only [scatter, List.map_cons, List.map_nil]
      rw [e]
      split
      · rw [List.map_cons, ih]; rfl
      · rw [List.map_cons, ih]; rfl
    | cons x v =>
      simp only [scatter, List.map_cons]
      rw [e]
      split
      · rw [List.map_cons, ih]; rfl
      · rw [List.map_cons, ih]

theorem keepAt_comm_map {A B : Type} (f : A → B) (p : ℕ → Bool) (l : List A) : (keepAt p l).map f = keepAt p (l.map f) := by
  unfold keepAt
  rw [List.zipIdx_map, List.filter_map, List.map_map, List.map_map]
  rfl

theorem usedAt_erase (rows : List (Row (Sc α))) : usedAt (rows.map Row.erase) = usedAt rows := by
  funext i
  unfold usedAt
  rw [List.any_map]
  congr 1
  funext r
  simp only [Function.comp, Row.erase, List.getElem?_map]
  cases r.vals[i]? <;> rfl

theorem concatRuns_erase (ts : List ℤ) (d o : List (Row (Sc α))) :
    (concatRuns ts d o).erase = concatRuns ts (d.map Row.erase) (o.map Row.erase) := by
  unfold concatRuns ScmRun.erase
  simp only [usedAt_erase, List.map_map, ScmRun.mk.injEq, true_and]
  refine List.map_congr_left fun r _ => ?_
  simp only [Function.comp, Row.erase, keepAt_comm_map]

variable [DecidableEq α]

theorem selects_erase (dv : String) (r : Row (Sc α)) : selects dv r.erase = selects dv r := by
  unfold selects
  rw [Row.info_erase, Meta.get_erase, Meta.get_erase]
  congr 1
  · cases h : Meta.get "variable" r.info with
    | none => rfl
    | some v => cases v <;> rfl
  · cases h : Meta.get "region" r.info with
    | none => rfl
    | some v =>
      cases v with
      | str s =>
        rw [Bool.eq_iff_iff, beq_iff_eq, beq_iff_eq]
        simp [MVal.erase]
      | num x =>
        rw [Bool.eq_iff_iff, beq_iff_eq, beq_iff_eq]
        simp [MVal.erase]
      | int x =>
        rw [Bool.eq_iff_iff, beq_iff_eq, beq_iff_eq]
        simp [MVal.erase]

/-- one variant is the other with kinds erased -/
structure VRef {σ τ : Type} (er : σ → τ) (V : Variant N (Sc α) σ) (W : Variant N α τ) : Prop where
  name : W.name = V.name
  setDeltaT : ∀ v, PRef er (id : Unit → Unit) (V.setDeltaT v) (W.setDeltaT v.erase)
  setDrivers : ∀ v, PRef er (id : Unit → Unit) (V.setDrivers v) (W.setDrivers v.erase)
  reset : PRef er (id : Unit → Unit) V.reset W.reset
  run : PRef er (id : Unit → Unit) V.run W.run
  outputs : ∀ s, W.outputs (er s) = (V.outputs s).map fun o => (o.1, o.2.1, o.2.2.map Sc.val)
  saveParas : ∀ s, W.saveParas (er s) = (V.saveParas s).map fun p => (p.1, p.2.erase)

theorem TLM.vref : VRef TLM.erase (TLM.variant R.scalars) (TLM.variant R) where
  name := rfl
  setDeltaT := TLM.pref_setDeltaT
  setDrivers := TLM.pref_setDrivers
  reset := TLM.pref_reset
  run := TLM.pref_run
  outputs _ := rfl
  saveParas _ := rfl

theorem IRM.vref : VRef IRM.erase (IRM.variant R.scalars) (IRM.variant R) where
  name := rfl
  setDeltaT := IRM.pref_setDeltaT
  setDrivers := IRM.pref_setDrivers
  reset := IRM.pref_reset
  run := IRM.pref_run
  outputs s := by
    simp only [IRM.variant, IRM.outputs, IRM.erase, List.map_cons, List.map_nil, List.map_zipWith, List.zipWith_map]
    rfl
  saveParas _ := rfl

section
variable {σ τ : Type} {er : σ → τ} {V : Variant N (Sc α) σ} {W : Variant N α τ}

theorem nodup_erase {rows : List (Row (Sc α))} {A B : Type} {er : σ → τ} {g : A → B} {x : Py σ A} {y : Py τ B}
    (h : PRef er g x y) :
    PRef er g (if !(decide (rows.map Row.info).Nodup) then Py.throw .nonUniqueMeta else x)
      (if !(decide ((rows.map Row.erase).map Row.info).Nodup) then Py.throw .nonUniqueMeta else y) := by
  by_cases hn : ((rows.map Row.erase).map Row.info).Nodup
  · have : (rows.map Row.info).Nodup := by
      refine List.Nodup.of_map Meta.erase ?_
      rw [List.map_map] at hn ⊢
      exact hn
    rw [if_neg (by rw [decide_eq_true this]; exact Bool.false_ne_true), if_neg (by rw [decide_eq_true hn]; exact Bool.false_ne_true)]
    exact h
  · intro s
    rw [if_pos (by simpa using hn)]
    exact .inl ⟨_, rfl, trivial⟩

theorem pref_runRow (h : VRef er V W) (i : ℕ) (row : Row (Sc α)) :
    PRef er (List.map Row.erase) (runRow V R.scalars i row) (runRow W R i row.erase) := by
  unfold runRow
  rw [Row.info_erase, Meta.get_erase]
  cases Meta.get "unit" row.info with
  | none => exact PRef.throw _
  | some v =>
    cases v with
    | num x => exact PRef.throw _
    | int x => exact PRef.throw _
    | str us =>
      simp only [Option.map_some, MVal.erase]
      have e : R.scalars.parse us = R.parse us := rfl
      rw [e]
      cases R.parse us with
      | none => exact PRef.throw _
      | some u =>
        have e1 : dropna row.erase.vals = (dropna row.vals).map Sc.val := (dropna_erase row.vals).symm
        simp only [e1]
        refine PRef.bind (h.setDrivers (.qty ⟨1, dropna row.vals⟩ u)) fun _ => ?_
        refine PRef.bind h.reset fun _ => ?_
        refine PRef.bind h.run fun _ => ?_
        refine PRef.bind PRef.get fun m => ?_
        have e2 : ∀ o : String × String × List (Sc α),
            Row.erase ⟨createInfo row.info o.2.1 o.1, scatter row.vals o.2.2⟩ =
            ⟨createInfo (Meta.erase row.info) o.2.1 o.1, scatter row.erase.vals (o.2.2.map Sc.val)⟩ := by
          intro o
          show Row.mk (Meta.erase _) _ = _
          rw [createInfo, Meta.set_erase, Meta.set_erase, scatter_erase]; rfl
        have e3 : ((⟨Meta.erase row.info, scatter row.erase.vals ((dropna row.vals).map Sc.val)⟩ : Row α) ::
            (W.outputs (er m)).map fun o =>
              (⟨createInfo (Meta.erase row.info) o.2.1 o.1, scatter row.erase.vals o.2.2⟩ : Row α)) =
            ((⟨row.info, scatter row.vals (dropna row.vals)⟩ : Row (Sc α)) ::
              (V.outputs m).map fun o => (⟨createInfo row.info o.2.1 o.1, scatter row.vals o.2.2⟩ : Row (Sc α))).map Row.erase := by
          rw [h.outputs, List.map_map, List.map_cons, List.map_map]
          congr 1
          · show _ = Row.mk (Meta.erase row.info) ((scatter row.vals (dropna row.vals)).map Sc.val)
            rw [scatter_erase]; rfl
          · exact List.map_congr_left fun o _ => (e2 o).symm
        rw [e3]
        refine PRef.ite (by rw [List.isEmpty_map]) (PRef.throw _) ?_
        refine nodup_erase (PRef.pure ?_)
        rw [List.map_map, List.map_map]
        refine List.map_congr_left fun r _ => ?_
        show Row.mk (Meta.erase _) _ = _
        rw [Meta.set_erase]; rfl

theorem pref_runRows (h : VRef er V W) (rows : List (Row (Sc α))) : ∀ i,
    PRef er (List.map Row.erase) (runRows V R.scalars i rows) (runRows W R i (rows.map Row.erase)) := by
  induction rows with
  | nil => intro i; exact PRef.pure rfl
  | cons r rows ih =>
    intro i
    refine PRef.bind (pref_runRow h i r) fun out => ?_
    refine PRef.bind (ih (i + 1)) fun more => PRef.pure (List.map_append ..)

theorem parasMeta_erase (ps : List (String × Qty N (Sc α))) :
    Meta.erase (parasMeta R.scalars ps) = parasMeta R (ps.map fun p => (p.1, p.2.erase)) := by
  unfold parasMeta Meta.erase
  rw [List.map_map, List.map_map]; rfl

theorem pref_runScenarios (h : VRef er V W) (dv : String) (scen : ScmRun (Sc α)) :
    PRef er ScmRun.erase (runScenarios V R.scalars dv scen) (runScenarios W R dv scen.erase) := by
  unfold runScenarios
  refine PRef.bind PRef.get fun m => ?_
  have e1 : scen.erase.rows.filter (selects dv) = (scen.rows.filter (selects dv)).map Row.erase := by
    show (scen.rows.map Row.erase).filter _ = _
    rw [List.filter_map]
    congr 1
    refine List.filter_congr fun r _ => ?_
    exact selects_erase dv r
  simp only [e1]
  refine PRef.ite (by rw [List.isEmpty_map]) (PRef.throw _) ?_
  have e2 : ((scen.rows.filter (selects dv)).map Row.erase).map
        (fun r => ({ r with info := annotate W.name (parasMeta R (W.saveParas (er m))) r.info } : Row α)) =
      ((scen.rows.filter (selects dv)).map
        (fun r => ({ r with info := annotate V.name (parasMeta R.scalars (V.saveParas m)) r.info } : Row (Sc α)))).map Row.erase := by
    rw [List.map_map, List.map_map]
    refine List.map_congr_left fun r _ => ?_
    show _ = Row.mk (Meta.erase _) _
    rw [annotate_erase, parasMeta_erase, ← h.saveParas, ← h.name]; rfl
  rw [e2]
  refine PRef.bind (g := id) (PRef.lift (.inr ?_)) fun ts => ?_
  · show selectTimestep scen.times = _
    cases selectTimestep scen.times <;> rfl
  have e3 : (Arg.qty (ts.qty R) : Arg N α) = (Arg.qty (ts.qty R.scalars) : Arg N (Sc α)).erase := by cases ts <;> rfl
  simp only [id, e3]
  refine PRef.bind (h.setDeltaT (.qty (ts.qty R.scalars))) fun _ => ?_
  refine nodup_erase ?_
  refine PRef.bind (pref_runRows h _ _) fun out => PRef.pure (concatRuns_erase ..)
end

/-! ## Calls -/

theorem TLM.pref_call (op : TLM.Op N (Sc α)) :
    PRef TLM.erase (id : Unit → Unit) (TLM.call R.scalars op) (TLM.call R op.erase) := by
  cases op with
  | setDu v => exact pref_setDu v
  | setDl v => exact pref_setDl v
  | setLambda0 v => exact pref_setLambda0 v
  | setA v => exact pref_setA v
  | setEfficacy v => exact pref_setEfficacy v
  | setEta v => exact pref_setEta v
  | setDeltaT v => exact pref_setDeltaT v
  | setErf v => exact pref_setErf v
  | setDrivers v => exact pref_setDrivers v
  | reset => exact pref_reset
  | step => exact pref_step
  | run => exact pref_run
  | runScenarios dv scen => exact PRef.bind (pref_runScenarios TLM.vref dv scen) fun _ => PRef.pure rfl

theorem IRM.pref_call (op : IRM.Op N (Sc α)) :
    PRef IRM.erase (id : Unit → Unit) (IRM.call R.scalars op) (IRM.call R op.erase) := by
  cases op with
  | setQ1 v => exact pref_setQ1 v
  | setQ2 v => exact pref_setQ2 v
  | setD1 v => exact pref_setD1 v
  | setD2 v => exact pref_setD2 v
  | setEfficacy v => exact pref_setEfficacy v
  | setDeltaT v => exact pref_setDeltaT v
  | setErf v => exact pref_setErf v
  | setDrivers v => exact pref_setDrivers v
  | reset => exact pref_reset
  | step => exact pref_step
  | run => exact pref_run
  | runScenarios dv scen => exact PRef.bind (pref_runScenarios IRM.vref dv scen) fun _ => PRef.pure rfl

/-! ## Numpy scalars never raise on division -/

/-- no exception of Python's own number arithmetic; results satisfy `P` -/
def Quiet {A : Type} (P : A → Prop) (x : Except Err A) : Prop :=
  (∀ a, x = .ok a → P a) ∧ x ≠ .error .zeroDivision ∧ x ≠ .error .complex

namespace Quiet
variable {A B : Type} {P : A → Prop} {Q : B → Prop}
theorem pure {a : A} (h : P a) : Quiet P (.ok a) :=
  ⟨fun b e => by cases e; exact h, by simp, by simp⟩
theorem bind {x : Except Err A} {f : A → Except Err B} (h : Quiet P x) (hf : ∀ a, P a → Quiet Q (f a)) : Quiet Q (x >>= f) := by
  cases x with
  | ok a => exact hf a (h.1 a rfl)
  | error e =>
    exact ⟨fun b hb => (nomatch hb), fun e' => h.2.1 (by cases e'; rfl), fun e' => h.2.2 (by cases e'; rfl)⟩
end Quiet

theorem np_magIn (q : Qty N (Sc α)) (u : Units N) : (q.magIn R.scalars u).np = q.mag.np := by
  unfold Qty.magIn; split <;> rfl

/-- the magnitude is a numpy scalar -/
abbrev Qty.Np (q : Qty N (Sc α)) : Prop := q.mag.np = true

theorem quiet_pyDiv (x y : Sc α) (h : x.np = true ∨ y.np = true) : Quiet (fun z : Sc α => z.np = true) (pyDiv x y) := by
  have : (Arith.isPy x && Arith.isPy y) = false := by
    show ((!x.np && Arith.isPy x.val) && (!y.np && Arith.isPy y.val)) = false
    rcases h with h | h <;> simp [h]
  unfold pyDiv
  rw [if_neg (by rw [this, Bool.and_false]; exact Bool.false_ne_true)]
  refine Quiet.pure ?_
  show (x.np || y.np) = true
  rcases h with h | h <;> simp [h]

section
variable {p q : Qty N (Sc α)}
theorem np_mul (h : p.Np ∨ q.Np) : (p.mul q).Np := by
  show (p.mag.np || q.mag.np) = true
  rcases h with h | h <;> simp [h]
theorem np_nmul (x : Sc α) (h : q.Np) : (Qty.nmul x q).Np := by
  show (x.np || q.mag.np) = true
  simp [h]
theorem np_sq (h : q.Np) : q.sq.Np := by
  show (q.mag.np || q.mag.np) = true
  simp [h]
theorem np_neg (h : q.Np) : q.neg.Np := h
theorem quiet_div (h : p.Np ∨ q.Np) : Quiet Qty.Np (p.div q) :=
  Quiet.bind (quiet_pyDiv _ _ h) fun _ hz => Quiet.pure hz
theorem quiet_ndiv (x : Sc α) (h : q.Np) : Quiet Qty.Np (Qty.ndiv x q) :=
  Quiet.bind (quiet_pyDiv _ _ (.inr h)) fun _ hz => Quiet.pure hz
theorem quiet_add (h : p.Np ∨ q.Np) : Quiet Qty.Np (p.add R.scalars q) := by
  unfold Qty.add
  split
  · refine Quiet.pure ?_
    show (p.mag.np || (q.magIn R.scalars p.unit).np) = true
    rw [np_magIn]
    rcases h with h | h <;> simp [h]
  · exact ⟨fun a e => (nomatch e), by simp, by simp⟩
theorem quiet_sub (h : p.Np ∨ q.Np) : Quiet Qty.Np (p.sub R.scalars q) := by
  unfold Qty.sub
  split
  · refine Quiet.pure ?_
    show (p.mag.np || (q.magIn R.scalars p.unit).np) = true
    rw [np_magIn]
    rcases h with h | h <;> simp [h]
  · exact ⟨fun a e => (nomatch e), by simp, by simp⟩
theorem quiet_any_add (p q : Qty N (Sc α)) : Quiet (fun _ => True) (p.add R.scalars q) := by
  unfold Qty.add
  split
  · exact Quiet.pure trivial
  · exact ⟨fun a e => (nomatch e), by simp, by simp⟩
theorem quiet_any_nsub (x : Sc α) (q : Qty N (Sc α)) : Quiet (fun _ => True) (Qty.nsub R.scalars x q) := by
  unfold Qty.nsub
  split
  · exact Quiet.pure trivial
  · exact ⟨fun a e => (nomatch e), by simp, by simp⟩
theorem quiet_sqrt (h : q.Np) : Quiet Qty.Np q.sqrt := by
  have : Arith.isPy q.mag = false := by
    show (!q.mag.np && Arith.isPy q.mag.val) = false
    simp [h]
  unfold Qty.sqrt
  rw [if_neg (by rw [this, Bool.and_false]; exact Bool.false_ne_true)]
  exact Quiet.pure h
end

theorem quiet_geoffroy (du dl l e h : Qty N (Sc α)) (hh : h.Np) :
    Quiet (fun g : GH N (Sc α) => g.C.Np ∨ (g.phi1.Np ∧ g.phi2.Np)) (geoffroy R.scalars du dl l e h) := by
  unfold geoffroy
  refine Quiet.bind (quiet_add (.inr (np_mul (.inr hh)))) fun num hnum => ?_
  refine Quiet.bind (quiet_div (.inl hnum)) fun b1 h1 => ?_
  refine Quiet.bind (quiet_div (.inl hh)) fun b2 h2 => ?_
  refine Quiet.bind (quiet_add (.inl h1)) fun b hb => ?_
  refine Quiet.bind (quiet_sub (.inl h1)) fun bs hbs => ?_
  refine Quiet.bind (quiet_div (.inl (np_mul (.inr hh)))) fun disc hdisc => ?_
  refine Quiet.bind (quiet_sub (.inr hdisc)) fun delta hdelta => ?_
  refine Quiet.bind (quiet_div (.inr (np_mul (.inr hh)))) fun tc htc => ?_
  refine Quiet.bind (quiet_sqrt hdelta) fun root hroot => ?_
  refine Quiet.bind (quiet_sub (.inl hb)) fun bm hbm => ?_
  refine Quiet.bind (quiet_add (.inl hb)) fun bp hbp => ?_
  refine Quiet.bind (quiet_div (.inr (np_mul (.inr hh)))) fun pc hpc => ?_
  refine Quiet.bind (quiet_sub (.inl hbs)) fun bsm hbsm => ?_
  refine Quiet.bind (quiet_add (.inl hbs)) fun bsp hbsp => ?_
  refine Quiet.bind (quiet_sub (.inl (np_mul (.inl hpc)))) fun dphi hdphi => ?_
  refine Quiet.bind (quiet_div (.inr (np_mul (.inr hdphi)))) fun a1 _ => ?_
  refine Quiet.bind (quiet_div (.inr (np_mul (.inr hdphi)))) fun a2 _ => ?_
  exact Quiet.pure (.inr ⟨np_mul (.inl hpc), np_mul (.inl hpc)⟩)

theorem quiet_getIR (m : TLM N (Sc α)) (hh : m.eta.Np) :
    Quiet (fun _ => True) (m.getImpulseResponseParameters R.scalars) := by
  unfold TLM.getImpulseResponseParameters
  split
  · exact ⟨fun a e => (nomatch e), by simp, by simp⟩
  · refine Quiet.bind (quiet_geoffroy _ _ _ _ _ hh) fun g hg => ?_
    have hq : Quiet (fun d : Qty N (Sc α) => (g.C.mul d).Np) (g.phi2.sub R.scalars g.phi1) := by
      rcases hg with hC | ⟨h1, h2⟩
      · unfold Qty.sub
        split
        · exact Quiet.pure (np_mul (.inl hC))
        · exact ⟨fun a e => (nomatch e), by simp, by simp⟩
      · have := quiet_sub (R := R) (p := g.phi2) (q := g.phi1) (.inl h2)
        exact ⟨fun a e => np_mul (.inr (this.1 a e)), this.2⟩
    refine Quiet.bind hq fun dphi hd => ?_
    refine Quiet.bind (quiet_div (.inr hd)) fun q1 _ => ?_
    refine Quiet.bind (quiet_div (.inr hd)) fun q2 _ => ?_
    exact Quiet.pure trivial

theorem quiet_getTL (m : IRM N (Sc α)) (hq : m.q1.Np ∨ m.q2.Np) :
    Quiet (fun r : IRM.TLParams N (Sc α) => r.eta.Np) (m.getTwoLayerParameters R.scalars) := by
  unfold IRM.getTwoLayerParameters
  refine Quiet.bind (quiet_add hq) fun qsum hs => ?_
  refine Quiet.bind (quiet_ndiv _ hs) fun l hl => ?_
  refine Quiet.bind (quiet_add (hq.imp (fun h => np_mul (.inl h)) fun h => np_mul (.inl h))) fun cden hc => ?_
  refine Quiet.bind (quiet_div (.inr hc)) fun C hC => ?_
  refine Quiet.bind (quiet_add (.inl (np_mul (.inr (np_mul (.inl hl)))))) fun s1 _ => ?_
  refine Quiet.bind (quiet_sub (.inr hC)) fun cd0 h0 => ?_
  refine Quiet.bind (quiet_div (.inl h0)) fun CD hD => ?_
  refine Quiet.bind (quiet_add (.inl (np_mul (.inr (np_mul (.inl hl)))))) fun s2 _ => ?_
  refine Quiet.bind (quiet_div (.inl hD)) fun eta he => ?_
  refine Quiet.bind (quiet_div (.inl hC)) fun du _ => ?_
  refine Quiet.bind (quiet_div (.inl hD)) fun dl _ => ?_
  exact Quiet.pure he

/-- the same for methods, with an invariant -/
def PQuiet {σ A : Type} (I : σ → Prop) (x : Py σ A) : Prop :=
  ∀ s, I s → I (x s).1 ∧ (x s).2 ≠ .error .zeroDivision ∧ (x s).2 ≠ .error .complex

namespace PQuiet
variable {σ A B : Type} {I : σ → Prop}
theorem pure (a : A) : PQuiet I (Pure.pure a : Py σ A) := fun _ h => ⟨h, by simp, by simp⟩
theorem get : PQuiet I (Py.get : Py σ σ) := fun _ h => ⟨h, by simp, by simp⟩
theorem throw {e : Err} (h1 : e ≠ .zeroDivision) (h2 : e ≠ .complex) : PQuiet I (Py.throw e : Py σ A) :=
  fun _ h => ⟨h, by simpa using h1, by simpa using h2⟩
theorem lift {P : A → Prop} {x : Except Err A} (h : Quiet P x) : PQuiet I (Py.lift x : Py σ A) := fun _ hs => ⟨hs, h.2⟩
theorem modify {f : σ → σ} (h : ∀ s, I s → I (f s)) : PQuiet I (Py.modify f) := fun s hs => ⟨h s hs, by simp, by simp⟩
theorem bindI {x : Py σ A} {f : A → Py σ B} (P : A → Prop) (hx : PQuiet I x)
    (hP : ∀ s, I s → ∀ a, (x s).2 = .ok a → P a) (hf : ∀ a, P a → PQuiet I (f a)) : PQuiet I (x >>= f) := by
  intro s hs
  have h := hx s hs
  have hp := hP s hs
  simp only [Py.bind_apply]
  revert h hp
  rcases x s with ⟨s', r⟩
  intro h hp
  cases r with
  | ok a => exact hf a (hp a rfl) s' h.1
  | error e => exact ⟨h.1, fun e' => h.2.1 (by cases e'; rfl), fun e' => h.2.2 (by cases e'; rfl)⟩
theorem bind {x : Py σ A} {f : A → Py σ B} (hx : PQuiet I x) (hf : ∀ a, PQuiet I (f a)) : PQuiet I (x >>= f) :=
  bindI (fun _ => True) hx (fun _ _ _ _ => trivial) fun a _ => hf a
theorem bindGet {f : σ → Py σ B} (hf : ∀ a, I a → PQuiet I (f a)) : PQuiet I (Py.get >>= f) :=
  bindI I get (fun s hs a e => by cases e; exact hs) hf
theorem times {x : Py σ Unit} (hx : PQuiet I x) (k : ℕ) : PQuiet I (Py.times x k) := by
  induction k with
  | zero => exact pure ()
  | succ k ih => exact bind hx fun _ => ih
end PQuiet

theorem quiet_checkQty (v : Arg N (Sc α)) (n : String) (u : Units N) :
    Quiet (fun _ => True) (checkQty R.scalars v n u) := by
  cases v with
  | bare => exact ⟨fun _ _ => trivial, by simp [checkQty], by simp [checkQty]⟩
  | qty q =>
    simp only [checkQty]
    cases q.toUnit R.scalars u with
    | ok a => exact Quiet.pure trivial
    | error e => exact ⟨fun _ _ => trivial, by simp, by simp⟩

theorem quiet_getAt (l : List (Sc α)) (i : ℕ) : Quiet (fun _ => True) (getAt l i) := by
  unfold getAt
  cases l[i]? with
  | none => exact ⟨fun _ _ => trivial, by simp, by simp⟩
  | some x => exact Quiet.pure trivial
theorem quiet_setAt (l : List (Sc α)) (i : ℕ) (x : Sc α) : Quiet (fun _ => True) (setAt l i x) := by
  unfold setAt
  split
  · exact Quiet.pure trivial
  · exact ⟨fun _ _ => trivial, by simp, by simp⟩
theorem quiet_erfAt (c : Core N (Sc α)) (i : ℕ) : Quiet (fun _ => True) (c.erfAt i) := by
  unfold Core.erfAt
  cases c.erfMag with
  | none => exact ⟨fun _ _ => trivial, by simp, by simp⟩
  | some l => exact quiet_getAt l i

namespace IRM
/-- the numpy parameters: one of `q1`, `q2`, and both timescales -/
def NpPar (m : IRM N (Sc α)) : Prop := (m.q1.Np ∨ m.q2.Np) ∧ m.d1Mag.np = true ∧ m.d2Mag.np = true

theorem pquiet_core {x : Py (Core N (Sc α)) Unit} (h : PQuiet (fun _ => True) x) :
    PQuiet (NpPar (N := N) (α := α)) (Py.onCore IRM.core (fun m c => { m with core := c }) x) :=
  fun s hs => ⟨hs, (h s.core trivial).2⟩
theorem pquiet_setDeltaT (v : Arg N (Sc α)) : PQuiet NpPar (setDeltaT R.scalars v) :=
  pquiet_core (PQuiet.bind (PQuiet.lift (quiet_checkQty _ _ _)) fun _ => PQuiet.modify fun _ _ => trivial)
theorem pquiet_coreErf (v : DArg N (Sc α)) : PQuiet (fun _ => True) (Core.setErf R.scalars v) := by
  cases v with
  | bare a => exact PQuiet.throw (by simp) (by simp)
  | qty a u =>
    unfold Core.setErf
    simp only
    split
    · exact PQuiet.modify fun _ _ => trivial
    · exact PQuiet.throw (by simp) (by simp)
theorem pquiet_setErf (v : DArg N (Sc α)) : PQuiet NpPar (setErf R.scalars v) := pquiet_core (pquiet_coreErf v)
theorem pquiet_setDrivers (v : DArg N (Sc α)) : PQuiet NpPar (setDrivers R.scalars v) := by
  refine pquiet_core ?_
  have h : ∀ c : Prop, ∀ _ : Decidable c, PQuiet (fun _ => True)
      (if c then Py.throw (.assertion "erf must be one-dimensional") else Core.setErf R.scalars v) := by
    intro c _
    split
    · exact PQuiet.throw (by simp) (by simp)
    · exact pquiet_coreErf v
  exact h _ _
theorem pquiet_reset : PQuiet NpPar (reset : Py (IRM N (Sc α)) Unit) := by
  refine PQuiet.bind PQuiet.get fun m => ?_
  split
  · exact PQuiet.throw (by simp) (by simp)
  · split
    · exact PQuiet.bind (PQuiet.modify fun _ h => h) fun _ => PQuiet.throw (by simp) (by simp)
    · exact PQuiet.modify fun _ h => h
theorem quiet_calcNextTemp (dt t q d f : Sc α) (h : d.np = true) : Quiet (fun _ => True) (calcNextTemp dt t q d f) := by
  unfold calcNextTemp
  refine Quiet.bind (quiet_pyDiv _ _ (.inr h)) fun _ _ => ?_
  refine Quiet.bind (quiet_pyDiv _ _ (.inr h)) fun _ _ => Quiet.pure trivial
theorem quiet_calcNextRndt (m : IRM N (Sc α)) (hq : m.q1.Np ∨ m.q2.Np) (t1 t2 f e : Sc α) :
    Quiet (fun _ => True) (m.calcNextRndt R.scalars t1 t2 f e) := by
  unfold calcNextRndt
  refine Quiet.bind (quiet_getTL m hq) fun p hp => ?_
  by_cases he : Arith.eq e (Arith.ofNat 1) = true
  · rw [if_pos he]; exact Quiet.pure trivial
  · rw [if_neg he]
    refine Quiet.bind (quiet_geoffroy _ _ _ _ _ hp) fun gh _ => ?_
    refine Quiet.bind (quiet_any_nsub _ _) fun x1 _ => ?_
    refine Quiet.bind (quiet_any_nsub _ _) fun x2 _ => ?_
    refine Quiet.bind (quiet_any_add _ _) fun s _ => ?_
    by_cases hu : ((p.eta.muln (e - Arith.ofNat 1)).mul s).unit = R.scalars.wm2
    · simp only [hu, if_true]; exact Quiet.pure trivial
    · simp only [hu, if_false]; exact ⟨fun _ _ => trivial, by simp [Bind.bind, Except.bind], by simp [Bind.bind, Except.bind]⟩
theorem pquiet_step : PQuiet NpPar (step R.scalars : Py (IRM N (Sc α)) Unit) := by
  refine PQuiet.bind PQuiet.get fun m0 => ?_
  refine PQuiet.bind (PQuiet.modify fun _ h => h) fun _ => ?_
  refine PQuiet.bindGet fun m hm => ?_
  cases nextIdx m0.idx with
  | zero =>
    refine PQuiet.bind (PQuiet.lift (quiet_setAt _ _ _)) fun _ => ?_
    refine PQuiet.bind (PQuiet.modify fun _ h => h) fun _ => ?_
    refine PQuiet.bind (PQuiet.lift (quiet_setAt _ _ _)) fun _ => ?_
    refine PQuiet.bind (PQuiet.modify fun _ h => h) fun _ => ?_
    refine PQuiet.bind (PQuiet.lift (quiet_setAt _ _ _)) fun _ => PQuiet.modify fun _ h => h
  | succ j =>
    refine PQuiet.bind (PQuiet.lift (quiet_getAt _ _)) fun _ => ?_
    refine PQuiet.bind (PQuiet.lift (quiet_erfAt _ _)) fun _ => ?_
    refine PQuiet.bind (PQuiet.lift (quiet_calcNextTemp _ _ _ _ _ hm.2.1)) fun _ => ?_
    refine PQuiet.bind (PQuiet.lift (quiet_setAt _ _ _)) fun _ => ?_
    refine PQuiet.bind (PQuiet.modify fun _ h => h) fun _ => ?_
    refine PQuiet.bindGet fun m hm => ?_
    refine PQuiet.bind (PQuiet.lift (quiet_getAt _ _)) fun _ => ?_
    refine PQuiet.bind (PQuiet.lift (quiet_erfAt _ _)) fun _ => ?_
    refine PQuiet.bind (PQuiet.lift (quiet_calcNextTemp _ _ _ _ _ hm.2.2)) fun _ => ?_
    refine PQuiet.bind (PQuiet.lift (quiet_setAt _ _ _)) fun _ => ?_
    refine PQuiet.bind (PQuiet.modify fun _ h => h) fun _ => ?_
    refine PQuiet.bindGet fun m hm => ?_
    refine PQuiet.bind (PQuiet.lift (quiet_getAt _ _)) fun _ => ?_
    refine PQuiet.bind (PQuiet.lift (quiet_getAt _ _)) fun _ => ?_
    refine PQuiet.bind (PQuiet.lift (quiet_erfAt _ _)) fun _ => ?_
    refine PQuiet.bind (PQuiet.lift (quiet_calcNextRndt _ hm.1 _ _ _ _)) fun _ => ?_
    refine PQuiet.bind (PQuiet.lift (quiet_setAt _ _ _)) fun _ => PQuiet.modify fun _ h => h
theorem pquiet_run : PQuiet NpPar (run R.scalars : Py (IRM N (Sc α)) Unit) :=
  PQuiet.bind PQuiet.get fun _ => PQuiet.times pquiet_step _
end IRM

theorem pquiet_runScenarios {σ : Type} {I : σ → Prop} {V : Variant N (Sc α) σ} (h1 : ∀ v, PQuiet I (V.setDeltaT v))
    (h2 : ∀ v, PQuiet I (V.setDrivers v)) (h3 : PQuiet I V.reset) (h4 : PQuiet I V.run) (dv : String) (scen : ScmRun (Sc α)) :
    PQuiet I (runScenarios V R.scalars dv scen) := by
  have hrow : ∀ i row, PQuiet I (runRow V R.scalars i row) := by
    intro i row
    unfold runRow
    split
    · split
      · exact PQuiet.throw (by simp) (by simp)
      · refine PQuiet.bind (h2 _) fun _ => PQuiet.bind h3 fun _ => PQuiet.bind h4 fun _ => PQuiet.bind PQuiet.get fun m => ?_
        simp only
        split
        · exact PQuiet.throw (by simp) (by simp)
        · split
          · exact PQuiet.throw (by simp) (by simp)
          · exact PQuiet.pure _
    · exact PQuiet.throw (by simp) (by simp)
  have hrows : ∀ rows i, PQuiet I (runRows V R.scalars i rows) := by
    intro rows
    induction rows with
    | nil => intro i; exact PQuiet.pure _
    | cons r rows ih => intro i; exact PQuiet.bind (hrow i r) fun _ => PQuiet.bind (ih _) fun _ => PQuiet.pure _
  unfold runScenarios
  refine PQuiet.bind PQuiet.get fun m => ?_
  simp only
  split
  · exact PQuiet.throw (by simp) (by simp)
  · refine PQuiet.bind (PQuiet.lift (P := fun _ => True) ⟨fun _ _ => trivial, ?_⟩) fun _ => PQuiet.bind (h1 _) fun _ => ?_
    · unfold selectTimestep
      split
      · simp
      · split <;> simp
    · split
      · exact PQuiet.throw (by simp) (by simp)
      · exact PQuiet.bind (hrows _ _) fun _ => PQuiet.pure _

theorem IRM.quiet_call (op : IRM.Op N (Sc α)) (m : IRM N (Sc α)) (hm : m.NpPar) :
    (IRM.call R.scalars op m).2 ≠ .error .zeroDivision ∧ (IRM.call R.scalars op m).2 ≠ .error .complex := by
  have hset : ∀ {f : Qty N (Sc α) → IRM N (Sc α) → IRM N (Sc α)} (v n) (u : Units N), PQuiet (fun _ => True)
      ((do let q ← Py.lift (checkQty R.scalars v n u); Py.modify (f q)) : Py (IRM N (Sc α)) Unit) := fun v n u =>
    PQuiet.bind (PQuiet.lift (quiet_checkQty _ _ _)) fun _ => PQuiet.modify fun _ _ => trivial
  cases op with
  | setQ1 v => exact (hset v _ _ m trivial).2
  | setQ2 v => exact (hset v _ _ m trivial).2
  | setD1 v => exact (hset v _ _ m trivial).2
  | setD2 v => exact (hset v _ _ m trivial).2
  | setEfficacy v => exact (hset v _ _ m trivial).2
  | setDeltaT v => exact (pquiet_setDeltaT v m hm).2
  | setErf v => exact (pquiet_setErf v m hm).2
  | setDrivers v => exact (pquiet_setDrivers v m hm).2
  | reset => exact (pquiet_reset m hm).2
  | step => exact (pquiet_step m hm).2
  | run => exact (pquiet_run m hm).2
  | runScenarios dv scen =>
    exact ((PQuiet.bind (pquiet_runScenarios (V := IRM.variant R.scalars) pquiet_setDeltaT pquiet_setDrivers pquiet_reset
      pquiet_run dv scen) fun _ => PQuiet.pure ()) m hm).2

end TwoLayer
