import Verif.Spec.Ieee
import Verif.Proofs.RoundingTL

/-! # Infinities and NaN in a run -/

set_option linter.unusedSimpArgs false
set_option linter.unusedSectionVars false

namespace TwoLayer

/-- values that can only come from such values -/
structure Absorbs {α : Type} [Arith α] (P : α → Prop) : Prop where
  add : ∀ {x y : α}, P (x + y) → P x ∧ P y
  sub : ∀ {x y : α}, P (x - y) → P x ∧ P y
  mul : ∀ {x y : α}, P (x * y) → P x ∧ P y
  div : ∀ {x y : α}, P (x / y) → P x

namespace F64
variable {py : Bool}

theorem not_finite_nan : ¬ (nan : F64 py).Finite := by rintro ⟨v, h⟩; cases h
theorem not_finite_inf (s : Bool) : ¬ (inf s : F64 py).Finite := by rintro ⟨v, h⟩; cases h
theorem finite_negZero : (negZero : F64 py).Finite := ⟨0, rfl⟩
theorem finite_num (x : ℝ) : (num x : F64 py).Finite := ⟨x, rfl⟩

theorem finite_neg {x : F64 py} (h : (neg x).Finite) : x.Finite := by
  cases x with
  | nan => exact absurd h not_finite_nan
  | inf s => exact absurd h (not_finite_inf _)
  | negZero => exact finite_negZero
  | num x => exact finite_num x

theorem finite_add {x y : F64 py} (h : (add x y).Finite) : x.Finite ∧ y.Finite := by
  cases x <;> cases y <;> simp only [add] at h <;>
    first
      | exact absurd h not_finite_nan
      | exact absurd h (not_finite_inf _)
      | exact ⟨⟨_, rfl⟩, ⟨_, rfl⟩⟩
      | (split at h
         · exact absurd h (not_finite_inf _)
         · exact absurd h not_finite_nan)

theorem finite_mul {x y : F64 py} (h : (mul x y).Finite) : x.Finite ∧ y.Finite := by
  cases x <;> cases y <;> simp only [mul] at h <;>
    first
      | exact absurd h not_finite_nan
      | exact absurd h (not_finite_inf _)
      | exact ⟨⟨_, rfl⟩, ⟨_, rfl⟩⟩
      | (split at h
         · exact absurd h not_finite_nan
         · exact absurd h (not_finite_inf _))

theorem finite_div {x y : F64 py} (h : (div x y).Finite) : x.Finite := by
  cases x <;> cases y <;> simp only [div] at h <;>
    first
      | exact absurd h not_finite_nan
      | exact absurd h (not_finite_inf _)
      | exact ⟨_, rfl⟩

theorem absorbs : Absorbs (Finite (py := py)) where
  add h := finite_add h
  sub h := ⟨(finite_add h).1, finite_neg (finite_add h).2⟩
  mul h := finite_mul h
  div h := finite_div h
end F64

section
variable {N α : Type} [Fintype N] [DecidableEq N] [Arith α] {P : α → Prop}

theorem absorbs_upper (hP : Absorbs P) {dt t td f l a e h c : α} (hx : P (TLM.calcNextTempUpper dt t td f l a e h c)) :
    P dt ∧ P t ∧ P td ∧ P f ∧ P l ∧ P a ∧ P e ∧ P h := by
  obtain ⟨h1, h2⟩ := hP.add hx
  obtain ⟨h3, h4⟩ := hP.mul h2
  obtain ⟨h5, h6⟩ := hP.sub (hP.div h4)
  obtain ⟨h7, h8⟩ := hP.sub h5
  obtain ⟨h9, h10⟩ := hP.mul h6
  obtain ⟨h11, h12⟩ := hP.mul h9
  obtain ⟨-, h13⟩ := hP.sub h10
  obtain ⟨h14, -⟩ := hP.mul h8
  obtain ⟨h15, h16⟩ := hP.sub h14
  exact ⟨h3, h1, h13, h7, h15, (hP.mul h16).1, h11, h12⟩

theorem absorbs_lower (hP : Absorbs P) {dt td t h c : α} (hx : P (TLM.calcNextTempLower dt td t h c)) :
    P dt ∧ P t ∧ P td ∧ P h := by
  obtain ⟨h1, h2⟩ := hP.add hx
  obtain ⟨h3, h4⟩ := hP.mul h2
  obtain ⟨h5, h6⟩ := hP.mul (hP.div h4)
  exact ⟨h3, (hP.sub h6).1, h1, h5⟩

theorem absorbs_uptake (hP : Absorbs P) {dt td' td d t' t c : α} (hx : P (TLM.calcNextRndt dt td' td d t' t c)) :
    P td' ∧ P td ∧ P d ∧ P t' ∧ P t ∧ P c := by
  obtain ⟨h1, h2⟩ := hP.add hx
  obtain ⟨h3, h4⟩ := hP.mul (hP.div h1)
  obtain ⟨h5, h6⟩ := hP.mul (hP.div h2)
  exact ⟨(hP.sub h6).1, (hP.sub h6).2, h5, (hP.sub h4).1, (hP.sub h4).2, h3⟩

theorem getAt_ok {l : List α} {i : ℕ} {x : α} (h : getAt l i = .ok x) : l[i]? = some x := by
  unfold getAt at h
  cases hl : l[i]? with
  | none => rw [hl] at h; cases h
  | some y => rw [hl] at h; cases h; rfl

/-- what one step of the two-layer recurrence says -/
theorem TLM.seq_succ {m : TLM N α} {F : List α} {i : ℕ} {x : α × α × α} (h : m.eng.seq F (i + 1) = .ok x) :
    ∃ y f, m.eng.seq F i = .ok y ∧ F[i]? = some f ∧
      x.1 = calcNextTempUpper m.core.deltaTMag y.1 y.2.1 f m.lambda0Mag m.aMag m.efficacyMag m.etaMag m.hcuMag ∧
      x.2.1 = calcNextTempLower m.core.deltaTMag y.2.1 y.1 m.etaMag m.hclMag ∧
      x.2.2 = calcNextRndt m.core.deltaTMag x.2.1 y.2.1 m.hclMag x.1 y.1 m.hcuMag := by
  cases hy : m.eng.seq F i with
  | error e => simp only [Eng.seq, hy] at h; cases h
  | ok y =>
    cases hf : getAt F i with
    | error e => simp only [Eng.seq, hy, hf] at h; cases h
    | ok f =>
      obtain ⟨a, b, c⟩ := y
      simp only [Eng.seq, hy, hf] at h
      simp only [TLM.eng] at h
      cases h
      exact ⟨_, f, rfl, getAt_ok hf, rfl, rfl, rfl⟩

theorem TLM.absorb (hP : Absorbs P) {m : TLM N α} {F : List α} : ∀ {k : ℕ} {x : α × α × α}, m.eng.seq F k = .ok x →
    (P x.1 → ∀ j < k, ∃ y f, m.eng.seq F j = .ok y ∧ F[j]? = some f ∧ P y.1 ∧ P y.2.1 ∧ P f) ∧
    (P x.2.1 → ∀ j < k, ∃ y, m.eng.seq F j = .ok y ∧ P y.1 ∧ P y.2.1) := by
  intro k
  induction k with
  | zero => exact fun _ => ⟨fun _ j hj => absurd hj (by omega), fun _ j hj => absurd hj (by omega)⟩
  | succ k ih =>
    intro x hx
    obtain ⟨y, f, hy, hf, e1, e2, e3⟩ := TLM.seq_succ hx
    obtain ⟨i1, i2⟩ := ih hy
    constructor
    · intro h j hj
      rw [e1] at h
      obtain ⟨-, h1, h2, h3, -⟩ := absorbs_upper hP h
      rcases Nat.lt_succ_iff_lt_or_eq.mp hj with hj | rfl
      · exact i1 h1 j hj
      · exact ⟨y, f, hy, hf, h1, h2, h3⟩
    · intro h j hj
      rw [e2] at h
      obtain ⟨-, h1, h2, -⟩ := absorbs_lower hP h
      rcases Nat.lt_succ_iff_lt_or_eq.mp hj with hj | rfl
      · exact i2 h2 j hj
      · exact ⟨y, hy, h1, h2⟩

theorem absorbs_box (hP : Absorbs P) {dt t q d f x : α} (h : IRM.calcNextTemp dt t q d f = .ok x) (hx : P x) :
    P t ∧ P q ∧ P f := by
  unfold IRM.calcNextTemp at h
  cases hd : pyDiv (-dt) d with
  | error e => rw [hd] at h; cases h
  | ok y =>
    rw [hd] at h
    cases h
    obtain ⟨h1, h2⟩ := hP.add hx
    obtain ⟨h3, -⟩ := hP.mul h2
    exact ⟨(hP.mul h1).1, (hP.mul h3).2, (hP.mul h3).1⟩

theorem absorbs_ir_uptake (hP : Absorbs P) {R : Registry N α} {m : IRM N α} {t1 t2 f e x : α}
    (h : m.calcNextRndt R t1 t2 f e = .ok x) (hx : P x) : P t1 ∧ P t2 ∧ P f := by
  unfold IRM.calcNextRndt at h
  cases hp : m.getTwoLayerParameters R with
  | error e => rw [hp] at h; cases h
  | ok p =>
    simp only [hp, bind, Except.bind, pure, Except.pure] at h
    have key : ∃ z, x = f - p.lambda0.mag * (t1 + t2) - z := by
      repeat' split at h
      all_goals first | (cases h; done) | (cases h; exact ⟨_, rfl⟩)
    obtain ⟨z, rfl⟩ := key
    obtain ⟨h1, -⟩ := hP.sub hx
    obtain ⟨h2, h3⟩ := hP.sub h1
    obtain ⟨h4, h5⟩ := hP.add (hP.mul h3).2
    exact ⟨h4, h5, h2⟩

theorem IRM.seq_succ {R : Registry N α} {m : IRM N α} {F : List α} {i : ℕ} {x : α × α × α}
    (h : (m.eng R).seq F (i + 1) = .ok x) :
    ∃ y f, (m.eng R).seq F i = .ok y ∧ F[i]? = some f ∧
      calcNextTemp m.core.deltaTMag y.1 m.q1Mag m.d1Mag f = .ok x.1 ∧
      calcNextTemp m.core.deltaTMag y.2.1 m.q2Mag m.d2Mag f = .ok x.2.1 ∧
      m.calcNextRndt R y.1 y.2.1 f m.efficacyMag = .ok x.2.2 := by
  cases hy : (m.eng R).seq F i with
  | error e => simp only [Eng.seq, hy] at h; cases h
  | ok y =>
    cases hf : getAt F i with
    | error e => simp only [Eng.seq, hy, hf] at h; cases h
    | ok f =>
      obtain ⟨a, b, c⟩ := y
      simp only [Eng.seq, hy, hf] at h
      simp only [IRM.eng] at h
      refine ⟨_, f, rfl, getAt_ok hf, ?_⟩
      cases h1 : calcNextTemp m.core.deltaTMag a m.q1Mag m.d1Mag f with
      | error e => rw [h1] at h; cases h
      | ok x1 =>
        cases h2 : calcNextTemp m.core.deltaTMag b m.q2Mag m.d2Mag f with
        | error e => rw [h1, h2] at h; cases h
        | ok x2 =>
          cases h3 : m.calcNextRndt R a b f m.efficacyMag with
          | error e => rw [h1, h2, h3] at h; cases h
          | ok x3 =>
            rw [h1, h2, h3] at h
            cases h
            exact ⟨rfl, rfl, rfl⟩

theorem IRM.absorb (hP : Absorbs P) {R : Registry N α} {m : IRM N α} {F : List α} :
    ∀ {k : ℕ} {x : α × α × α}, (m.eng R).seq F k = .ok x →
    (P x.1 → ∀ j < k, ∃ y f, (m.eng R).seq F j = .ok y ∧ F[j]? = some f ∧ P y.1 ∧ P f) ∧
    (P x.2.1 → ∀ j < k, ∃ y f, (m.eng R).seq F j = .ok y ∧ F[j]? = some f ∧ P y.2.1 ∧ P f) := by
  intro k
  induction k with
  | zero => exact fun _ => ⟨fun _ j hj => absurd hj (by omega), fun _ j hj => absurd hj (by omega)⟩
  | succ k ih =>
    intro x hx
    obtain ⟨y, f, hy, hf, e1, e2, e3⟩ := IRM.seq_succ hx
    obtain ⟨i1, i2⟩ := ih hy
    constructor
    · intro h j hj
      obtain ⟨h1, h2, h3⟩ := absorbs_box hP e1 h
      rcases Nat.lt_succ_iff_lt_or_eq.mp hj with hj | rfl
      · exact i1 h1 j hj
      · exact ⟨y, f, hy, hf, h1, h3⟩
    · intro h j hj
      obtain ⟨h1, h2, h3⟩ := absorbs_box hP e2 h
      rcases Nat.lt_succ_iff_lt_or_eq.mp hj with hj | rfl
      · exact i2 h1 j hj
      · exact ⟨y, f, hy, hf, h1, h3⟩
end
end TwoLayer
