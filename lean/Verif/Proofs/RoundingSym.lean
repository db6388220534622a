import Verif.Spec.RoundingSym
import Verif.Proofs.RoundingUptake

/-! # Exact facts about floating-point runs -/

set_option linter.unusedSimpArgs false
set_option linter.unusedSectionVars false

namespace TwoLayer

/-! ## binary64 is odd and ordered -/

theorem near64_mono {x y : ℝ} (h : x ≤ y) : near64 x ≤ near64 y := by
  by_contra hc
  push Not at hc
  have h1 := near64_nearest x (near64_isDouble y)
  have h2 := near64_nearest y (near64_isDouble x)
  have hxy : x ≠ y := by rintro rfl; exact lt_irrefl _ hc
  have hlt := lt_of_le_of_ne h hxy
  rw [abs_le] at h1 h2
  rcases abs_cases (x - near64 y) with ⟨e1, k1⟩ | ⟨e1, k1⟩ <;> rcases abs_cases (y - near64 x) with ⟨e2, k2⟩ | ⟨e2, k2⟩ <;>
    rw [e1] at h1 <;> rw [e2] at h2 <;> linarith [h1.1, h1.2, h2.1, h2.2]

theorem near64_one : near64 1 = 1 := near64_of_isDouble ⟨1, 0, by norm_num, by norm_num, by norm_num⟩

theorem double_odd : double.Odd := near64_neg

theorem double_ordered : double.Ordered where
  zero := near64_zero
  one := near64_one
  mono _ _ := near64_mono
  idem x := near64_of_isDouble (near64_isDouble x)
  exp x hx := by
    have h0 := near64_mono (Real.exp_pos x).le
    have h1 := near64_mono (Real.exp_le_one_iff.mpr hx)
    rw [near64_zero] at h0
    rw [near64_one] at h1
    exact ⟨h0, h1⟩

/-! ## runs and sequences of cells -/

section
variable {N α : Type} [Fintype N] [DecidableEq N] [Arith α] {R : Registry N α}

/-- the lists hold the sequence -/
def Eng.Fills (e : Eng α) (F : List α) (A B C : List α) : Prop :=
  A.length = F.length ∧ B.length = F.length ∧ C.length = F.length ∧
    ∀ i < F.length, ∃ a b c, e.seq F i = .ok (a, b, c) ∧ A[i]? = some a ∧ B[i]? = some b ∧ C[i]? = some c

theorem Eng.Fills.unique {e : Eng α} {F A B C A' B' C' : List α} (h : e.Fills F A B C) (h' : e.Fills F A' B' C') :
    A = A' ∧ B = B' ∧ C = C' := by
  obtain ⟨l1, l2, l3, h⟩ := h
  obtain ⟨k1, k2, k3, h'⟩ := h'
  have key : ∀ i < F.length, A[i]? = A'[i]? ∧ B[i]? = B'[i]? ∧ C[i]? = C'[i]? := by
    intro i hi
    obtain ⟨a, b, c, g0, g1, g2, g3⟩ := h i hi
    obtain ⟨a', b', c', g0', g1', g2', g3'⟩ := h' i hi
    rw [g0] at g0'
    cases g0'
    exact ⟨g1.trans g1'.symm, g2.trans g2'.symm, g3.trans g3'.symm⟩
  have ext : ∀ {X Y : List α}, X.length = F.length → Y.length = F.length → (∀ i < F.length, X[i]? = Y[i]?) → X = Y := by
    intro X Y lX lY hXY
    apply List.ext_getElem?
    intro i
    rcases lt_or_ge i F.length with hi | hi
    · exact hXY i hi
    · rw [List.getElem?_eq_none (by omega), List.getElem?_eq_none (by omega)]
  exact ⟨ext l1 k1 fun i hi => (key i hi).1, ext l2 k2 fun i hi => (key i hi).2.1, ext l3 k3 fun i hi => (key i hi).2.2⟩

theorem IRM.simulate_fills {m m' : IRM N α} {d : DArg N α} {vals : List α} {u : Units N} (hg : GoodDrivers R d vals u)
    (h : IRM.simulate R d m = (m', .ok ())) : (m.eng R).Fills (modelF R vals u) m'.t1 m'.t2 m'.rndt := by
  obtain ⟨vals', u', v, hg', rfl, hI⟩ := IRM.simulate_ok h
  obtain ⟨h1, -⟩ := hg
  obtain ⟨h1', -⟩ := hg'
  rw [h1] at h1'
  cases h1'
  exact ⟨hI.lA, hI.lB, hI.lC, fun i hi => hI.done i (by rw [modelF_length] at hi; exact hi)⟩

theorem IRM.simulate_of_fills {m : IRM N α} {d : DArg N α} {vals : List α} {u : Units N} (hg : GoodDrivers R d vals u)
    {A B C : List α} (hf : (m.eng R).Fills (modelF R vals u) A B C) :
    ∃ m', IRM.simulate R d m = (m', .ok ()) ∧ m'.t1 = A ∧ m'.t2 = B ∧ m'.rndt = C := by
  obtain ⟨v, hv, hI⟩ := (IRM.stepper R).times_ok (m.ready R vals u) (modelF R vals u) rfl vals.length (by simp)
    (fun i hi => by
      obtain ⟨a, b, c, h, -⟩ := hf.2.2.2 i (by rw [modelF_length]; exact hi)
      exact ⟨_, h⟩)
  have hs := (IRM.simulate_good R m hg).trans hv
  obtain ⟨h1, h2, h3⟩ := (IRM.simulate_fills hg hs).unique hf
  exact ⟨_, hs, h1, h2, h3⟩

theorem TLM.simulate_fills {m m' : TLM N α} {d : DArg N α} {vals : List α} {u : Units N} (hg : GoodDrivers R d vals u)
    (h : TLM.simulate R d m = (m', .ok ())) : m.eng.Fills (modelF R vals u) m'.tu m'.tl m'.rndt := by
  obtain ⟨vals', u', v, hg', rfl, hI⟩ := TLM.simulate_ok h
  obtain ⟨h1, -⟩ := hg
  obtain ⟨h1', -⟩ := hg'
  rw [h1] at h1'
  cases h1'
  exact ⟨hI.lA, hI.lB, hI.lC, fun i hi => hI.done i (by rw [modelF_length] at hi; exact hi)⟩

theorem TLM.simulate_of_fills {m : TLM N α} {d : DArg N α} {vals : List α} {u : Units N} (hg : GoodDrivers R d vals u)
    {A B C : List α} (hf : m.eng.Fills (modelF R vals u) A B C) :
    ∃ m', TLM.simulate R d m = (m', .ok ()) ∧ m'.tu = A ∧ m'.tl = B ∧ m'.rndt = C := by
  obtain ⟨m', hs⟩ := TLM.simulate_succeeds R m hg
  obtain ⟨h1, h2, h3⟩ := (TLM.simulate_fills hg hs).unique hf
  exact ⟨_, hs, h1, h2, h3⟩
end

/-! ## Negation -/

namespace FR
variable {r : Rounding} (h : r.Odd)
include h

theorem odd_zero : r.fl 0 = 0 := by
  have := h 0
  rw [neg_zero] at this
  linarith

theorem neg_add_neg (x y : FR r) : -x + -y = -(x + y) := by
  refine match x, y with
  | XR.nan, XR.nan => rfl
  | XR.nan, XR.fin _ => rfl
  | XR.fin _, XR.nan => rfl
  | XR.fin x, XR.fin y => ?_
  show fin (r.fl (-x + -y)) = fin (-r.fl (x + y))
  rw [← h]; congr 2; ring

theorem neg_sub_neg (x y : FR r) : -x - -y = -(x - y) := by
  refine match x, y with
  | XR.nan, XR.nan => rfl
  | XR.nan, XR.fin _ => rfl
  | XR.fin _, XR.nan => rfl
  | XR.fin x, XR.fin y => ?_
  show fin (r.fl (-x - -y)) = fin (-r.fl (x - y))
  rw [← h]; congr 2; ring

theorem neg_mul' (x y : FR r) : -x * y = -(x * y) := by
  refine match x, y with
  | XR.nan, XR.nan => rfl
  | XR.nan, XR.fin _ => rfl
  | XR.fin _, XR.nan => rfl
  | XR.fin x, XR.fin y => ?_
  show fin (r.fl (-x * y)) = fin (-r.fl (x * y))
  rw [← h]; congr 2; ring

theorem mul_neg' (x y : FR r) : x * -y = -(x * y) := by
  refine match x, y with
  | XR.nan, XR.nan => rfl
  | XR.nan, XR.fin _ => rfl
  | XR.fin _, XR.nan => rfl
  | XR.fin x, XR.fin y => ?_
  show fin (r.fl (x * -y)) = fin (-r.fl (x * y))
  rw [← h]; congr 2; ring

theorem neg_mul_neg' (x y : FR r) : -x * -y = x * y := by
  refine match x, y with
  | XR.nan, XR.nan => rfl
  | XR.nan, XR.fin _ => rfl
  | XR.fin _, XR.nan => rfl
  | XR.fin x, XR.fin y => ?_
  show fin (r.fl (-x * -y)) = fin (r.fl (x * y))
  congr 2; ring

theorem neg_div' (x y : FR r) : -x / y = -(x / y) := by
  refine match x, y with
  | XR.nan, XR.nan => rfl
  | XR.nan, XR.fin _ => rfl
  | XR.fin _, XR.nan => rfl
  | XR.fin x, XR.fin y => ?_
  by_cases hy : y = 0
  · have e : ∀ z : ℝ, (fin z / fin y : FR r) = (XR.nan : XR) := by
      intro z
      show (if y = 0 then XR.nan else XR.fin (r.fl (z / y))) = XR.nan
      exact if_pos hy
    show (fin (-x) / fin y : FR r) = -(fin x / fin y)
    rw [e, e]; rfl
  · have e1 : (fin (-x) / fin y : FR r) = fin (r.fl (-x / y)) := fin_div hy
    have e2 : (fin x / fin y : FR r) = fin (r.fl (x / y)) := fin_div hy
    show (fin (-x) / fin y : FR r) = -(fin x / fin y)
    rw [e1, e2, neg_div, h]; rfl

theorem neg_sub_zero (x : FR r) : -x - Arith.ofNat 0 = -(x - Arith.ofNat 0) := by
  have : (Arith.ofNat 0 : FR r) = -Arith.ofNat 0 := by
    show fin (r.fl ((0 : ℕ) : ℝ)) = fin (-r.fl ((0 : ℕ) : ℝ))
    rw [Nat.cast_zero, odd_zero h, neg_zero]
  conv_lhs => rw [this]
  exact neg_sub_neg h _ _

theorem neg_dec : -(Arith.dec 0 1 : FR r) = Arith.dec 0 1 := by
  show fin (-r.fl (((0 : ℕ) : ℝ) / 10 ^ 1)) = fin (r.fl (((0 : ℕ) : ℝ) / 10 ^ 1))
  rw [Nat.cast_zero, zero_div, odd_zero h, neg_zero]
end FR

theorem Eng.seq_neg {r : Rounding} (h : r.Odd) {e e' : Eng (FR r)}
    (hA : ∀ a b f x, e.nA a b f = .ok x → e'.nA (-a) (-b) (-f) = .ok (-x))
    (hB : ∀ a b f x, e.nB a b f = .ok x → e'.nB (-a) (-b) (-f) = .ok (-x))
    (hC : ∀ a b a' b' f x, e.nC a b a' b' f = .ok x → e'.nC (-a) (-b) (-a') (-b') (-f) = .ok (-x))
    (F : List (FR r)) : ∀ i {a b c}, e.seq F i = .ok (a, b, c) → e'.seq (F.map fun x => -x) i = .ok (-a, -b, -c) := by
  intro i
  induction i with
  | zero =>
    intro a b c hs
    simp only [Eng.seq, Except.ok.injEq, Prod.mk.injEq] at hs ⊢
    obtain ⟨rfl, rfl, rfl⟩ := hs
    simp only [FR.neg_dec h, and_self]
  | succ i ih =>
    intro a b c hs
    rw [Eng.seq] at hs
    cases h0 : e.seq F i with
    | error x => rw [h0] at hs; cases hs
    | ok s =>
      obtain ⟨a0, b0, c0⟩ := s
      rw [h0] at hs
      cases h1 : getAt F i with
      | error x => rw [h1] at hs; cases hs
      | ok f =>
        simp only [h1] at hs
        cases h2 : e.nA a0 b0 f with
        | error x => simp only [h2] at hs; cases hs
        | ok a1 =>
          simp only [h2] at hs
          cases h3 : e.nB a0 b0 f with
          | error x => simp only [h3] at hs; cases hs
          | ok b1 =>
            simp only [h3] at hs
            cases h4 : e.nC a0 b0 a1 b1 f with
            | error x => simp only [h4] at hs; cases hs
            | ok c1 =>
              simp only [h4, Except.ok.injEq, Prod.mk.injEq] at hs
              obtain ⟨rfl, rfl, rfl⟩ := hs
              have hF : getAt (F.map fun x => -x) i = .ok (-f) := by
                simp only [getAt, List.getElem?_map] at h1 ⊢
                cases hx : F[i]? with
                | none => rw [hx] at h1; cases h1
                | some y => rw [hx] at h1; cases h1; rfl
              rw [Eng.seq, ih h0]
              simp only [hF, hA _ _ _ _ h2, hB _ _ _ _ h3, hC _ _ _ _ _ _ h4]

theorem Eng.Fills.neg {r : Rounding} (h : r.Odd) {e e' : Eng (FR r)}
    (hA : ∀ a b f x, e.nA a b f = .ok x → e'.nA (-a) (-b) (-f) = .ok (-x))
    (hB : ∀ a b f x, e.nB a b f = .ok x → e'.nB (-a) (-b) (-f) = .ok (-x))
    (hC : ∀ a b a' b' f x, e.nC a b a' b' f = .ok x → e'.nC (-a) (-b) (-a') (-b') (-f) = .ok (-x))
    {F A B C : List (FR r)} (hf : e.Fills F A B C) :
    e'.Fills (F.map fun x => -x) (A.map fun x => -x) (B.map fun x => -x) (C.map fun x => -x) := by
  obtain ⟨l1, l2, l3, hs⟩ := hf
  refine ⟨by simp [l1], by simp [l2], by simp [l3], fun i hi => ?_⟩
  obtain ⟨a, b, c, h0, h1, h2, h3⟩ := hs i (by simpa using hi)
  exact ⟨_, _, _, Eng.seq_neg h hA hB hC F i h0, by simp [h1], by simp [h2], by simp [h3]⟩

section
variable {N : Type} [Fintype N] [DecidableEq N] {r : Rounding} {R : Registry N (FR r)}

theorem fseries_neg (n : ℕ) (F : ℕ → ℝ) : (fseries n F : List (FR r)).map (fun x => -x) = fseries n fun i => -F i := by
  simp only [fseries, List.map_map]
  rfl

theorem IRM.neg_temp (h : r.Odd) {dt t q d f x : FR r} (hx : IRM.calcNextTemp dt t q d f = .ok x) :
    IRM.calcNextTemp dt (-t) q d (-f) = .ok (-x) := by
  unfold IRM.calcNextTemp at hx ⊢
  cases hd : pyDiv (-dt) d with
  | error e => rw [hd] at hx; cases hx
  | ok y =>
    simp only [hd, bind, Except.bind, pure, Except.pure, Except.ok.injEq] at hx ⊢
    rw [← hx, FR.neg_mul' h, FR.neg_mul' h, FR.neg_mul' h, FR.neg_add_neg h]

theorem IRM.neg_rndt (h : r.Odd) {m : IRM N (FR r)} {t1 t2 f e x : FR r} (hx : m.calcNextRndt R t1 t2 f e = .ok x) :
    m.calcNextRndt R (-t1) (-t2) (-f) e = .ok (-x) := by
  unfold IRM.calcNextRndt at hx ⊢
  cases hp : m.getTwoLayerParameters R with
  | error e => rw [hp] at hx; cases hx
  | ok p =>
    simp only [hp, bind, Except.bind, pure, Except.pure] at hx ⊢
    by_cases he : Arith.eq e (Arith.ofNat 1) = true
    · simp only [he, if_true, Except.ok.injEq] at hx ⊢
      rw [← hx, FR.neg_add_neg h, FR.mul_neg' h, FR.neg_sub_neg h, FR.neg_sub_zero h]
    · rw [Bool.not_eq_true] at he
      simp only [he, Bool.false_eq_true, if_false] at hx ⊢
      cases hg : geoffroy R p.du p.dl p.lambda0 p.efficacy p.eta with
      | error e => rw [hg] at hx; cases hx
      | ok g =>
        simp only [hg] at hx ⊢
        cases h1 : Qty.nsub R (Arith.ofNat 1) g.phi1 with
        | error e => simp only [h1] at hx; cases hx
        | ok x1 =>
          simp only [h1] at hx ⊢
          cases h2 : Qty.nsub R (Arith.ofNat 1) g.phi2 with
          | error e => simp only [h2] at hx; cases hx
          | ok x2 =>
            have u1 : x1.unit = 0 := by
              unfold Qty.nsub at h1; split at h1 <;> cases h1; rfl
            have u2 : x2.unit = 0 := by
              unfold Qty.nsub at h2; split at h2 <;> cases h2; rfl
            simp only [h2, Qty.add, Qty.mul, Qty.magIn, Qty.muln, u1, u2, true_or, if_true] at hx ⊢
            by_cases hw : p.eta.unit + (0 + R.degC) = R.wm2
            · simp only [hw, if_true, Except.ok.injEq] at hx ⊢
              rw [← hx]
              simp only [FR.neg_add_neg h, FR.mul_neg' h, FR.neg_sub_neg h]
            · simp only [hw, if_false] at hx
              cases hx

theorem TLM.neg_upper (h : r.Odd) (dt t d f l a e n c : FR r) :
    TLM.calcNextTempUpper dt (-t) (-d) (-f) l (-a) e n c = -TLM.calcNextTempUpper dt t d f l a e n c := by
  simp only [TLM.calcNextTempUpper]
  rw [FR.neg_mul_neg' h, FR.mul_neg' h, FR.neg_sub_neg h, FR.neg_sub_neg h, FR.mul_neg' h, FR.neg_sub_neg h, FR.neg_div' h,
    FR.mul_neg' h, FR.neg_add_neg h]

theorem TLM.neg_lower (h : r.Odd) (dt t d n c : FR r) :
    TLM.calcNextTempLower dt (-d) (-t) n c = -TLM.calcNextTempLower dt d t n c := by
  simp only [TLM.calcNextTempLower]
  rw [FR.neg_sub_neg h, FR.mul_neg' h, FR.neg_div' h, FR.mul_neg' h, FR.neg_add_neg h]

theorem TLM.neg_rndt (h : r.Odd) (dt d' d D t' t C : FR r) :
    TLM.calcNextRndt dt (-d') (-d) D (-t') (-t) C = -TLM.calcNextRndt dt d' d D t' t C := by
  simp only [TLM.calcNextRndt]
  rw [FR.neg_sub_neg h, FR.neg_sub_neg h, FR.mul_neg' h, FR.mul_neg' h, FR.neg_div' h, FR.neg_div' h, FR.neg_add_neg h]
end

/-! ## Delay -/

theorem Eng.seq_rest {α : Type} [Arith α] {e : Eng α} {z : α} (hz : (Arith.dec 0 1 : α) = z) (hA : e.nA z z z = .ok z)
    (hB : e.nB z z z = .ok z) (hC : e.nC z z z z z = .ok z) {F : List α} {k : ℕ} (h0 : ∀ i < k, getAt F i = .ok z) :
    ∀ i ≤ k, e.seq F i = .ok (z, z, z) := by
  intro i
  induction i with
  | zero => intro _; rw [Eng.seq, hz]
  | succ i ih =>
    intro hi
    rw [Eng.seq, ih (by omega)]
    simp only [h0 i (by omega), hA, hB, hC]

theorem Eng.seq_delay {α : Type} [Arith α] {e : Eng α} {z : α} (hz : (Arith.dec 0 1 : α) = z) (hA : e.nA z z z = .ok z)
    (hB : e.nB z z z = .ok z) (hC : e.nC z z z z z = .ok z) {F F' : List α} {k : ℕ} (h0 : ∀ i < k, getAt F' i = .ok z)
    (hs : ∀ i, getAt F' (k + i) = getAt F i) : ∀ i, e.seq F' (k + i) = e.seq F i := by
  intro i
  induction i with
  | zero => rw [add_zero, Eng.seq_rest hz hA hB hC h0 k le_rfl, Eng.seq, hz]
  | succ i ih =>
    rw [← add_assoc, Eng.seq, ih, hs]
    rw [Eng.seq]

section
variable {N : Type} [Fintype N] [DecidableEq N] {r : Rounding} {R : Registry N (FR r)}

theorem fseries_inj {n : ℕ} {f g : ℕ → ℝ} (h : (fseries n f : List (FR r)) = fseries n g) : ∀ i < n, f i = g i := by
  intro i hi
  have := congrArg (fun l => l[i]?) h
  simp only [fseries_getElem? _ _ _ hi] at this
  injection this with this
  injection this

theorem fseries_congr {n : ℕ} {f g : ℕ → ℝ} (h : ∀ i < n, f i = g i) : (fseries n f : List (FR r)) = fseries n g := by
  apply eq_fseries (fseries_length _ _)
  intro i hi
  rw [fseries_getElem? _ _ _ hi, h i hi]

theorem fseries_getAt {n : ℕ} {f : ℕ → ℝ} {i : ℕ} (hi : i < n) : getAt (fseries n f : List (FR r)) i = .ok (FR.fin (f i)) := by
  simp only [getAt, fseries_getElem? _ _ _ hi]

theorem fseries_delay {n k : ℕ} {F F' : ℕ → ℝ} (hs : ∀ i < n, F' (k + i) = F i) (i : ℕ) :
    getAt (fseries (k + n) F' : List (FR r)) (k + i) = getAt (fseries n F) i := by
  rcases lt_or_ge i n with hi | hi
  · rw [fseries_getAt (by omega), fseries_getAt hi, hs i hi]
  · simp only [getAt]
    rw [List.getElem?_eq_none (by rw [fseries_length]; omega), List.getElem?_eq_none (by rw [fseries_length]; omega)]

/-- a run that reports numbers -/
theorem Eng.fills_fseries {e : Eng (FR r)} {n : ℕ} {F A B C : ℕ → ℝ} :
    e.Fills (fseries n F) (fseries n A) (fseries n B) (fseries n C) ↔
      ∀ i < n, e.seq (fseries n F) i = .ok (FR.fin (A i), FR.fin (B i), FR.fin (C i)) := by
  constructor
  · rintro ⟨-, -, -, h⟩ i hi
    obtain ⟨a, b, c, h0, h1, h2, h3⟩ := h i (by rw [fseries_length]; exact hi)
    rw [fseries_getElem? _ _ _ hi] at h1 h2 h3
    cases h1; cases h2; cases h3
    exact h0
  · intro h
    refine ⟨by simp [fseries_length], by simp [fseries_length], by simp [fseries_length], fun i hi => ?_⟩
    rw [fseries_length] at hi
    exact ⟨_, _, _, h i hi, fseries_getElem? _ _ _ hi, fseries_getElem? _ _ _ hi, fseries_getElem? _ _ _ hi⟩

theorem Eng.fills_delay {e : Eng (FR r)} (hz : r.fl 0 = 0) (hA : e.nA (FR.fin 0) (FR.fin 0) (FR.fin 0) = .ok (FR.fin 0))
    (hB : e.nB (FR.fin 0) (FR.fin 0) (FR.fin 0) = .ok (FR.fin 0))
    (hC : e.nC (FR.fin 0) (FR.fin 0) (FR.fin 0) (FR.fin 0) (FR.fin 0) = .ok (FR.fin 0)) {n k : ℕ} {F F' A B C : ℕ → ℝ}
    (h0 : ∀ i < k, F' i = 0) (hs : ∀ i < n, F' (k + i) = F i)
    (hf : e.Fills (fseries n F) (fseries n A) (fseries n B) (fseries n C)) :
    e.Fills (fseries (k + n) F') (fseries (k + n) (delayed k A)) (fseries (k + n) (delayed k B))
      (fseries (k + n) (delayed k C)) := by
  rw [Eng.fills_fseries] at hf ⊢
  have hd : (Arith.dec 0 1 : FR r) = FR.fin 0 := by simp [hz]
  have h0' : ∀ i < k, getAt (fseries (k + n) F' : List (FR r)) i = .ok (FR.fin 0) := by
    intro i hi
    rw [fseries_getAt (by omega), h0 i hi]
  intro i hi
  rcases lt_or_ge i k with hik | hik
  · rw [Eng.seq_rest hd hA hB hC h0' i hik.le]
    simp [delayed, hik]
  · obtain ⟨j, rfl⟩ : ∃ j, i = k + j := ⟨i - k, by omega⟩
    rw [Eng.seq_delay hd hA hB hC h0' (fseries_delay hs) j, hf j (by omega)]
    simp [delayed]

theorem IRM.FProduces.fills {m : IRM N (FR r)} {d : DArg N (FR r)} {n : ℕ} (hn : n ≠ 0) {F T1 T2 T : ℕ → ℝ} {us : List (FR r)}
    (hd : IsFForcing R d n F) (h : IRM.FProduces R m d n T1 T2 T us) :
    (m.eng R).Fills (fseries n F) (fseries n T1) (fseries n T2) us ∧ ∀ i < n, T i = r.fl (T1 i + T2 i) := by
  obtain ⟨vals, u, -, -, hg, hmF⟩ := hd.good hn
  obtain ⟨m', hs, ho⟩ := h
  have hf := IRM.simulate_fills hg hs
  simp only [IRM.outputs, List.cons.injEq, Prod.mk.injEq, true_and, and_true] at ho
  obtain ⟨o1, o2, o3, o4⟩ := ho
  rw [o1, o2, fseries_add] at o3
  rw [hmF, o1, o2, o4] at hf
  exact ⟨hf, fun i hi => (fseries_inj o3 i hi).symm⟩

theorem IRM.fproduces_of_fills {m : IRM N (FR r)} {d : DArg N (FR r)} {n : ℕ} (hn : n ≠ 0) {F T1 T2 T : ℕ → ℝ}
    {us : List (FR r)} (hd : IsFForcing R d n F) (h : (m.eng R).Fills (fseries n F) (fseries n T1) (fseries n T2) us)
    (hT : ∀ i < n, T i = r.fl (T1 i + T2 i)) : IRM.FProduces R m d n T1 T2 T us := by
  obtain ⟨vals, u, -, -, hg, hmF⟩ := hd.good hn
  rw [← hmF] at h
  obtain ⟨m', hs, h1, h2, h3⟩ := IRM.simulate_of_fills hg h
  refine ⟨m', hs, ?_⟩
  simp only [IRM.outputs, h1, h2, h3, fseries_add]
  rw [fseries_congr fun i hi => (hT i hi).symm]

theorem TLM.FProduces.fills {m : TLM N (FR r)} {d : DArg N (FR r)} {n : ℕ} (hn : n ≠ 0) {F T TD U : ℕ → ℝ}
    (hd : IsFForcing R d n F) (h : TLM.FProduces R m d n T TD U) :
    m.eng.Fills (fseries n F) (fseries n T) (fseries n TD) (fseries n U) := by
  obtain ⟨vals, u, -, -, hg, hmF⟩ := hd.good hn
  obtain ⟨m', hs, ho⟩ := h
  have hf := TLM.simulate_fills hg hs
  simp only [TLM.outputs, List.cons.injEq, Prod.mk.injEq, true_and, and_true] at ho
  obtain ⟨o1, o2, o3⟩ := ho
  rwa [hmF, o1, o2, o3] at hf

theorem TLM.fproduces_of_fills {m : TLM N (FR r)} {d : DArg N (FR r)} {n : ℕ} (hn : n ≠ 0) {F T TD U : ℕ → ℝ}
    (hd : IsFForcing R d n F) (h : m.eng.Fills (fseries n F) (fseries n T) (fseries n TD) (fseries n U)) :
    TLM.FProduces R m d n T TD U := by
  obtain ⟨vals, u, -, -, hg, hmF⟩ := hd.good hn
  rw [← hmF] at h
  obtain ⟨m', hs, h1, h2, h3⟩ := TLM.simulate_of_fills hg h
  exact ⟨m', hs, by simp only [TLM.outputs, h1, h2, h3]⟩

/-- a number times a number -/
theorem FR.eq_fin_of_mul {x y : FR r} {z : ℝ} (h : x * y = FR.fin z) : (∃ a, x = FR.fin a) ∧ ∃ b, y = FR.fin b := by
  match x, y with
  | XR.nan, XR.nan => cases h
  | XR.nan, XR.fin _ => cases h
  | XR.fin _, XR.nan => cases h
  | XR.fin x, XR.fin y => exact ⟨⟨x, rfl⟩, y, rfl⟩

theorem FR.eq_fin_of_add {x y : FR r} {z : ℝ} (h : x + y = FR.fin z) : (∃ a, x = FR.fin a) ∧ ∃ b, y = FR.fin b := by
  match x, y with
  | XR.nan, XR.nan => cases h
  | XR.nan, XR.fin _ => cases h
  | XR.fin _, XR.nan => cases h
  | XR.fin x, XR.fin y => exact ⟨⟨x, rfl⟩, y, rfl⟩

theorem FR.eq_fin_of_sub {x y : FR r} {z : ℝ} (h : x - y = FR.fin z) : (∃ a, x = FR.fin a) ∧ ∃ b, y = FR.fin b := by
  match x, y with
  | XR.nan, XR.nan => cases h
  | XR.nan, XR.fin _ => cases h
  | XR.fin _, XR.nan => cases h
  | XR.fin x, XR.fin y => exact ⟨⟨x, rfl⟩, y, rfl⟩

/-- if the heat uptake of some forcing at rest is a number, that of no forcing at rest is zero -/
theorem IRM.rndt_rest (hz : r.fl 0 = 0) {m : IRM N (FR r)} {f x : ℝ} {e : FR r}
    (h : m.calcNextRndt R (FR.fin 0) (FR.fin 0) (FR.fin f) e = .ok (FR.fin x)) :
    m.calcNextRndt R (FR.fin 0) (FR.fin 0) (FR.fin 0) e = .ok (FR.fin 0) := by
  unfold IRM.calcNextRndt at h ⊢
  cases hp : m.getTwoLayerParameters R with
  | error e => rw [hp] at h; cases h
  | ok p =>
    simp only [hp, bind, Except.bind, pure, Except.pure] at h ⊢
    by_cases he : Arith.eq e (Arith.ofNat 1) = true
    · simp only [he, if_true, Except.ok.injEq] at h ⊢
      obtain ⟨⟨y, h1⟩, -⟩ := FR.eq_fin_of_sub h
      obtain ⟨-, y2, h2⟩ := FR.eq_fin_of_sub h1
      obtain ⟨⟨l, hl⟩, -⟩ := FR.eq_fin_of_mul h2
      simp [hl, hz]
    · rw [Bool.not_eq_true] at he
      simp only [he, Bool.false_eq_true, if_false] at h ⊢
      cases hg : geoffroy R p.du p.dl p.lambda0 p.efficacy p.eta with
      | error e => rw [hg] at h; cases h
      | ok g =>
        simp only [hg] at h ⊢
        cases h1 : Qty.nsub R (Arith.ofNat 1) g.phi1 with
        | error e => simp only [h1] at h; cases h
        | ok x1 =>
          simp only [h1] at h ⊢
          cases h2 : Qty.nsub R (Arith.ofNat 1) g.phi2 with
          | error e => simp only [h2] at h; cases h
          | ok x2 =>
            have u1 : x1.unit = 0 := by
              unfold Qty.nsub at h1; split at h1 <;> cases h1; rfl
            have u2 : x2.unit = 0 := by
              unfold Qty.nsub at h2; split at h2 <;> cases h2; rfl
            simp only [h2, Qty.add, Qty.mul, Qty.magIn, Qty.muln, u1, u2, true_or, if_true] at h ⊢
            by_cases hw : p.eta.unit + (0 + R.degC) = R.wm2
            · simp only [hw, if_true, Except.ok.injEq] at h ⊢
              obtain ⟨⟨y, k1⟩, y2, k2⟩ := FR.eq_fin_of_sub h
              obtain ⟨-, y3, k3⟩ := FR.eq_fin_of_sub k1
              obtain ⟨⟨l, hl⟩, -⟩ := FR.eq_fin_of_mul k3
              obtain ⟨⟨w, k4⟩, y4, k5⟩ := FR.eq_fin_of_mul k2
              obtain ⟨⟨y6, k6⟩, y7, k7⟩ := FR.eq_fin_of_add k5
              obtain ⟨⟨x1', hx1⟩, -⟩ := FR.eq_fin_of_mul k6
              obtain ⟨⟨x2', hx2⟩, -⟩ := FR.eq_fin_of_mul k7
              rw [k4]
              simp [hl, hx1, hx2, hz]
            · simp only [hw, if_false] at h
              cases h
end
end TwoLayer
