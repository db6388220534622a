import Verif.Proofs.Success

/-! # Missing values -/

set_option linter.unusedSimpArgs false
set_option linter.unusedSectionVars false

namespace TwoLayer
variable {N α σ : Type} [Fintype N] [DecidableEq N] [Arith α] [DecidableEq α]

theorem present_append (l l' : List α) : present (l ++ l') = present l ++ present l' := by
  simp [present]

theorem present_none {l : List α} (h : ∀ d ∈ l, Arith.isNaN d = true) : present l = [] := by
  simp only [present, List.filter_eq_nil_iff]
  intro d hd; simp [h d hd]

theorem present_all {l : List α} (h : ∀ d ∈ l, Arith.isNaN d = false) : present l = l := by
  simp only [present, List.filter_eq_self]
  intro d hd; simp [h d hd]

theorem PresentOn.take {vals : List α} {a n : Nat} (h : PresentOn vals a n) {k : Nat} (hk : k ≤ n) :
    present (vals.take (a + k)) = (vals.drop a).take k := by
  have : vals.take (a + k) = vals.take a ++ (vals.drop a).take k := by
    rw [List.take_add]
  rw [this, present_append, present_none, present_all]
  · rfl
  · intro d hd
    obtain ⟨i, hi⟩ := List.mem_iff_getElem?.mp hd
    rw [List.getElem?_take] at hi
    split at hi
    · rw [List.getElem?_drop] at hi
      exact (h.2 _ d hi).mpr ⟨by omega, by omega⟩
    · cases hi
  · intro d hd
    obtain ⟨i, hi⟩ := List.mem_iff_getElem?.mp hd
    rw [List.getElem?_take] at hi
    split at hi
    · next hlt =>
      cases hb : Arith.isNaN d with
      | true => rfl
      | false => have := (h.2 _ d hi).mp hb; omega
    · cases hi

theorem PresentOn.present {vals : List α} {a n : Nat} (h : PresentOn vals a n) :
    TwoLayer.present vals = (vals.drop a).take n := by
  have : vals = vals.take (a + n) ++ vals.drop (a + n) := (List.take_append_drop _ _).symm
  conv_lhs => rw [this]
  rw [present_append, h.take le_rfl, present_none, List.append_nil]
  intro d hd
  obtain ⟨i, hi⟩ := List.mem_iff_getElem?.mp hd
  rw [List.getElem?_drop] at hi
  cases hb : Arith.isNaN d with
  | true => rfl
  | false => have := (h.2 _ d hi).mp hb; omega

theorem PresentOn.length {vals : List α} {a n : Nat} (h : PresentOn vals a n) : (TwoLayer.present vals).length = n := by
  rw [h.present]
  have := h.1
  simp; omega

theorem PresentOn.getElem? {vals : List α} {a n : Nat} (h : PresentOn vals a n) {k : Nat} (hk : k < n) :
    (TwoLayer.present vals)[k]? = vals[a + k]? := by
  rw [h.present, List.getElem?_take, if_pos hk, List.getElem?_drop]

theorem PresentOn.before {vals : List α} {a n : Nat} (h : PresentOn vals a n) {k : Nat} (hk : k ≤ n) :
    presentBefore vals (a + k) = k := by
  unfold presentBefore
  rw [h.take hk]
  have := h.1
  simp; omega

/-- the value of a present position is found among the present values -/
theorem present_getElem? {vals : List α} {i : Nat} {d : α} (h : vals[i]? = some d) (hd : Arith.isNaN d = false) :
    (present vals)[presentBefore vals i]? = some d := by
  have hi : i < vals.length := (List.getElem?_eq_some_iff.mp h).1
  have hdi : vals[i] = d := (List.getElem?_eq_some_iff.mp h).2
  conv_lhs => rw [← List.take_append_drop i vals]
  rw [present_append, List.getElem?_append_right]
  · unfold presentBefore
    rw [List.take_append_drop, Nat.sub_self, List.drop_eq_getElem_cons hi, hdi]
    simp [present, hd]
  · unfold presentBefore
    rw [List.take_append_drop]

/-- values of a contiguous driver's results are at consecutive times -/
theorem OnDriverTimes.consecutive {times : List Int} {drv : List α} {outTimes : List Int} {xs row : List α}
    (h : OnDriverTimes times drv outTimes xs row) {a n : Nat} (hp : PresentOn drv a n) {k : Nat} (hk : k < n) {t : Int}
    (ht : times[a + k]? = some t) {x : α} (hx : xs[k]? = some x) : HasValue outTimes row t x := by
  have hlt : a + k < drv.length := by have := hp.1; omega
  obtain ⟨x', h1, h2⟩ := h.here (a + k) t drv[a + k] ht (List.getElem?_eq_getElem hlt)
    ((hp.2 _ _ (List.getElem?_eq_getElem hlt)).mpr ⟨by omega, by omega⟩)
  rw [hp.before hk.le, hx] at h1
  cases h1
  exact h2

theorem getElem?_nodup {times : List Int} (hn : times.Nodup) {i j : Nat} {t : Int} (hi : times[i]? = some t)
    (hj : times[j]? = some t) : i = j := by
  obtain ⟨h1, h2⟩ := List.getElem?_eq_some_iff.mp hi
  obtain ⟨h3, h4⟩ := List.getElem?_eq_some_iff.mp hj
  exact (List.Nodup.getElem_inj_iff hn).mp (h2.trans h4.symm)

/-- NaN where the driver is missing -/
theorem OnDriverTimes.missing {times : List Int} {drv : List α} {outTimes : List Int} {xs row : List α}
    (h : OnDriverTimes times drv outTimes xs row) (hn : times.Nodup) {t : Int} {d : α} (hd : HasValue times drv t d)
    (hnan : Arith.isNaN d = true) {x : α} (hx : HasValue outTimes row t x) : x = Arith.nan := by
  obtain ⟨i, d', h1, h2, h3⟩ := h.onlyHere t x hx
  obtain ⟨j, h4, h5⟩ := hd
  have := getElem?_nodup hn h1 h4
  subst this
  rw [h2] at h5; cases h5
  rcases h3 with ⟨h3, -⟩ | ⟨-, h3⟩
  · rw [hnan] at h3; cases h3
  · exact h3

/-- the driver's own values come back -/
theorem OnDriverTimes.driver {times : List Int} {drv : List α} {outTimes : List Int} {row : List α}
    (h : OnDriverTimes times drv outTimes (present drv) row) (hnan : Arith.isNaN (Arith.nan : α) = true) {t : Int} {x : α}
    (hx : Arith.isNaN x = false) : HasValue outTimes row t x ↔ HasValue times drv t x := by
  constructor
  · intro hv
    obtain ⟨i, d, h1, h2, ⟨h3, h4⟩ | ⟨-, h3⟩⟩ := h.onlyHere t x hv
    · rw [present_getElem? h2 h3] at h4
      cases h4
      exact ⟨i, h1, h2⟩
    · rw [h3, hnan] at hx; cases hx
  · rintro ⟨i, h1, h2⟩
    obtain ⟨x', h3, h4⟩ := h.here i t x h1 h2 hx
    rw [present_getElem? h2 hx] at h3
    cases h3
    exact h4

/-- the number of present values between two positions -/
theorem presentBefore_gap {vals : List α} {a b : Nat} (hab : a ≤ b) (hb : b ≤ vals.length) :
    presentBefore vals a ≤ presentBefore vals b ∧ presentBefore vals b - presentBefore vals a ≤ b - a ∧
    (presentBefore vals b - presentBefore vals a = b - a ↔
      ∀ i d, a ≤ i → i < b → vals[i]? = some d → Arith.isNaN d = false) := by
  have e : presentBefore vals b = presentBefore vals a + (present ((vals.drop a).take (b - a))).length := by
    unfold presentBefore
    conv_lhs => rw [show b = a + (b - a) by omega, List.take_add, present_append, List.length_append]
  have hl : ((vals.drop a).take (b - a)).length = b - a := by simp; omega
  have hle : (present ((vals.drop a).take (b - a))).length ≤ b - a := by
    conv_rhs => rw [← hl]
    exact List.length_filter_le _ _
  refine ⟨by omega, by omega, ?_⟩
  rw [e, Nat.add_sub_cancel_left]
  constructor
  · intro h i d h1 h2 h3
    have : present ((vals.drop a).take (b - a)) = (vals.drop a).take (b - a) :=
      List.filter_sublist.eq_of_length (by rw [hl]; exact h)
    have hm : d ∈ (vals.drop a).take (b - a) := by
      rw [List.mem_iff_getElem?]
      refine ⟨i - a, ?_⟩
      rw [List.getElem?_take, if_pos (by omega), List.getElem?_drop, show a + (i - a) = i by omega]
      exact h3
    rw [← this] at hm
    have := (List.mem_filter.mp hm).2
    simpa using this
  · intro h
    rw [present_all, hl]
    intro d hd
    obtain ⟨i, hi⟩ := List.mem_iff_getElem?.mp hd
    rw [List.getElem?_take] at hi
    split at hi
    · rw [List.getElem?_drop] at hi
      exact h (a + i) d (by omega) (by omega) hi
    · cases hi

end TwoLayer
