import Verif.Spec.Scenarios
import Verif.Proofs.Meta
import Verif.Proofs.Coherent

/-! # `run_scenarios`: list lemmas and the generic analysis -/

set_option linter.unusedSimpArgs false
set_option linter.unusedSectionVars false

namespace TwoLayer

/-! ## globbing -/

theorem globMatch_iff (p s : List Char) : globMatch p s = true ↔ Glob p s := by
  constructor
  · intro h
    induction p, s using globMatch.induct with
    | case1 s =>
      simp only [globMatch, List.isEmpty_iff] at h
      subst h; exact .nil
    | case2 p ih =>
      rw [globMatch] at h
      exact .star [] (ih h)
    | case3 p c s ih1 ih2 =>
      rw [globMatch, Bool.or_eq_true] at h
      rcases h with h | h
      · exact .star [] (ih1 h)
      · have := ih2 h
        cases this with
        | char hc _ => exact absurd rfl hc
        | star w h' => exact .star (c :: w) h'
    | case4 q p hq =>
      rw [globMatch] at h
      · cases h
      · exact hq
    | case5 q p c s hq ih =>
      rw [globMatch, Bool.and_eq_true, beq_iff_eq] at h
      · obtain ⟨rfl, h⟩ := h
        exact .char (fun e => hq e) (ih h)
      · exact hq
  · intro h
    induction h with
    | nil => simp [globMatch]
    | char hc _ ih =>
      rw [globMatch, ih]
      · simp
      · exact hc
    | @star p s w _ ih =>
      induction w with
      | nil =>
        cases s with
        | nil => simpa [globMatch] using ih
        | cons c s => simp [globMatch, ih]
      | cons c w ihw => simp [globMatch, ihw]

variable {N α σ : Type} [Fintype N] [DecidableEq N] [Arith α] [DecidableEq α]

theorem selects_iff (dv : String) (r : Row α) : selects dv r = true ↔ Selected dv r := by
  unfold selects Selected
  rw [Bool.and_eq_true, beq_iff_eq]
  refine and_congr ?_ Iff.rfl
  cases h : r.info.get "variable" with
  | none => simp
  | some v =>
    cases v with
    | str v => simp [globMatch_iff]
    | num x => simp
    | int n => simp

theorem selection_iff (dv : String) (rows sel : List (Row α)) :
    Selection dv rows sel ↔ sel = rows.filter (selects dv) := by
  constructor
  · rintro ⟨p, hp, rfl⟩
    have : p = selects dv := by
      funext r
      rw [Bool.eq_iff_iff, hp, selects_iff]
    rw [this]
  · rintro rfl
    exact ⟨_, selects_iff dv, rfl⟩

/-! ## scatter, keepAt -/

theorem dropna_eq (l : List α) : dropna l = present l := rfl

theorem scatter_getElem? (ds xs : List α) (h : (present ds).length = xs.length) (i : Nat) :
    (scatter ds xs)[i]? = match ds[i]? with
      | none => none
      | some d => if Arith.isNaN d then some Arith.nan else xs[presentBefore ds i]? := by
  induction ds generalizing xs i with
  | nil => simp [scatter]
  | cons d ds ih =>
    by_cases hd : Arith.isNaN d = true
    · have hp : present (d :: ds) = present ds := by simp [present, hd]
      rw [hp] at h
      simp only [scatter, hd, if_true]
      cases i with
      | zero => simp [hd]
      | succ i =>
        simp only [List.getElem?_cons_succ]
        rw [ih xs h i]
        have : presentBefore (d :: ds) (i + 1) = presentBefore ds i := by simp [presentBefore, present, hd]
        rw [this]
    · have hd' : Arith.isNaN d = false := by simpa using hd
      have hp : present (d :: ds) = d :: present ds := by simp [present, hd']
      rw [hp] at h
      cases xs with
      | nil => simp at h
      | cons x xs =>
        simp only [scatter, hd', Bool.false_eq_true, if_false]
        cases i with
        | zero => simp [hd', presentBefore, present]
        | succ i =>
          simp only [List.getElem?_cons_succ]
          rw [ih xs (by simpa using h) i]
          have : presentBefore (d :: ds) (i + 1) = presentBefore ds i + 1 := by
            simp [presentBefore, present, hd']
          rw [this]
          simp

theorem scatter_length (ds xs : List α) : (scatter ds xs).length = ds.length := by
  induction ds generalizing xs with
  | nil => simp [scatter]
  | cons d ds ih =>
    simp only [scatter]
    split
    · simp [ih]
    · cases xs <;> simp [ih]

theorem presentBefore_lt {ds : List α} {i : Nat} {d : α} (h : ds[i]? = some d) (hd : Arith.isNaN d = false) :
    presentBefore ds i < (present ds).length := by
  have hi : i < ds.length := (List.getElem?_eq_some_iff.mp h).1
  have hdi : ds[i] = d := (List.getElem?_eq_some_iff.mp h).2
  conv_rhs => rw [← List.take_append_drop i ds]
  unfold presentBefore present
  rw [List.filter_append, List.length_append, List.drop_eq_getElem_cons hi, hdi]
  simp [hd]

/-- how many positions below `i` are kept -/
def rank (p : Nat → Bool) (i : Nat) : Nat := ((List.range i).filter p).length

theorem rank_succ (p : Nat → Bool) (i : Nat) : rank p (i + 1) = rank p i + if p i then 1 else 0 := by
  unfold rank
  rw [List.range_succ, List.filter_append, List.length_append]
  congr 1
  by_cases h : p i <;> simp [h]

theorem rank_mono (p : Nat → Bool) {i j : Nat} (h : i ≤ j) : rank p i ≤ rank p j := by
  induction h with
  | refl => exact le_rfl
  | step _ ih => rw [Nat.succ_eq_add_one, rank_succ]; omega

section
variable {β : Type}

theorem keepAt_append (p : Nat → Bool) (l : List β) (x : β) :
    keepAt p (l ++ [x]) = keepAt p l ++ if p l.length then [x] else [] := by
  unfold keepAt
  rw [List.zipIdx_append, List.filter_append, List.map_append]
  congr 1
  by_cases h : p l.length <;> simp [h]

theorem keepAt_length (p : Nat → Bool) (l : List β) : (keepAt p l).length = rank p l.length := by
  induction l using List.reverseRecOn with
  | nil => simp [keepAt, rank]
  | append_singleton l x ih =>
    rw [keepAt_append, List.length_append, ih, List.length_append, List.length_singleton, rank_succ]
    by_cases h : p l.length <;> simp [h]

theorem keepAt_getElem? {p : Nat → Bool} {i : Nat} (h : p i = true) (l : List β) : (keepAt p l)[rank p i]? = l[i]? := by
  induction l using List.reverseRecOn with
  | nil => simp [keepAt]
  | append_singleton l x ih =>
    rw [keepAt_append]
    rcases lt_trichotomy i l.length with hi | hi | hi
    · have hr : rank p i < (keepAt p l).length := by
        rw [keepAt_length]
        have := rank_mono p (show i + 1 ≤ l.length by omega)
        rw [rank_succ, h] at this
        simp at this; omega
      rw [List.getElem?_append_left hr, ih, List.getElem?_append_left hi]
    · subst hi
      rw [h]
      simp only [if_true]
      rw [← keepAt_length, List.getElem?_concat_length, List.getElem?_concat_length]
    · have h1 : (l ++ [x])[i]? = none := by simp; omega
      rw [h1, List.getElem?_eq_none]
      rw [List.length_append, keepAt_length]
      have := rank_mono p (show l.length + 1 ≤ i by omega)
      rw [rank_succ] at this
      by_cases hx : p l.length <;> simp [hx] at this ⊢ <;> omega

theorem keepAt_getElem?_inv {p : Nat → Bool} {l : List β} {k : Nat} {v : β} (h : (keepAt p l)[k]? = some v) :
    ∃ i, p i = true ∧ rank p i = k ∧ l[i]? = some v := by
  induction l using List.reverseRecOn with
  | nil => simp [keepAt] at h
  | append_singleton l x ih =>
    rw [keepAt_append] at h
    by_cases hk : k < (keepAt p l).length
    · rw [List.getElem?_append_left hk] at h
      obtain ⟨i, h1, h2, h3⟩ := ih h
      refine ⟨i, h1, h2, ?_⟩
      rw [List.getElem?_append_left (List.getElem?_eq_some_iff.mp h3).1, h3]
    · rw [List.getElem?_append_right (by omega)] at h
      by_cases hx : p l.length = true
      · simp only [hx, if_true] at h
        have hk' : k - (keepAt p l).length = 0 := by
          have := (List.getElem?_eq_some_iff.mp h).1
          simp at this; omega
        rw [hk'] at h
        simp at h
        subst h
        refine ⟨l.length, hx, ?_, by simp⟩
        rw [← keepAt_length]; omega
      · simp [hx] at h

theorem keepAt_all {p : Nat → Bool} {l : List β} (h : ∀ i, i < l.length → p i = true) : keepAt p l = l := by
  induction l using List.reverseRecOn with
  | nil => rfl
  | append_singleton l x ih =>
    rw [keepAt_append, ih fun i hi => h i (by simp; omega), h l.length (by simp)]
    simp

theorem keepAt_map {γ : Type} (p : Nat → Bool) (f : β → γ) (l : List β) : keepAt p (l.map f) = (keepAt p l).map f := by
  induction l using List.reverseRecOn with
  | nil => rfl
  | append_singleton l x ih =>
    rw [List.map_append, List.map_singleton, keepAt_append, keepAt_append, ih, List.length_map, List.map_append]
    by_cases h : p l.length <;> simp [h]

theorem keepAt_sublist (p : Nat → Bool) (l : List β) : (keepAt p l).Sublist l := by
  induction l using List.reverseRecOn with
  | nil => simp [keepAt]
  | append_singleton l x ih =>
    rw [keepAt_append]
    by_cases h : p l.length
    · simp [h, ih]
    · simp [h]
      exact ih.trans (List.sublist_append_left _ _)
end

/-- values on the returned axis -/
theorem onDriverTimes {times : List Int} {drivers : List (Row α)} {r : Row α} (hr : r ∈ drivers) {xs : List α}
    (hx : xs.length = (present r.vals).length) :
    OnDriverTimes times r.vals (keepAt (usedAt drivers) times) xs (keepAt (usedAt drivers) (scatter r.vals xs)) where
  count := hx
  here := by
    intro i t d ht hd hn
    have hlt := presentBefore_lt hd hn
    rw [← hx] at hlt
    refine ⟨xs[presentBefore r.vals i], List.getElem?_eq_getElem hlt, rank (usedAt drivers) i, ?_, ?_⟩
    · rw [keepAt_getElem? ?_ times, ht]
      simp only [usedAt, List.any_eq_true]
      exact ⟨r, hr, by simp [hd, hn]⟩
    · rw [keepAt_getElem? ?_, scatter_getElem? _ _ hx.symm, hd]
      · simp [hn, List.getElem?_eq_getElem hlt]
      · simp only [usedAt, List.any_eq_true]
        exact ⟨r, hr, by simp [hd, hn]⟩
  onlyHere := by
    rintro t x ⟨k, h1, h2⟩
    obtain ⟨i, hp, hk, ht⟩ := keepAt_getElem?_inv h1
    rw [← hk, keepAt_getElem? hp, scatter_getElem? _ _ hx.symm] at h2
    cases hd : r.vals[i]? with
    | none => rw [hd] at h2; cases h2
    | some d =>
      rw [hd] at h2
      simp only at h2
      refine ⟨i, d, ht, hd, ?_⟩
      by_cases hn : Arith.isNaN d = true
      · rw [if_pos hn] at h2
        cases h2
        exact Or.inr ⟨hn, rfl⟩
      · rw [if_neg hn] at h2
        exact Or.inl ⟨by simpa using hn, h2⟩

end TwoLayer
