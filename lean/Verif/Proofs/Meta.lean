import Verif.Model.Scenarios

/-! # Metadata columns -/

set_option linter.unusedSimpArgs false
set_option linter.unusedSectionVars false

namespace TwoLayer
namespace Meta
variable {α : Type}

@[simp] theorem get_nil (k : String) : get k ([] : Meta α) = none := rfl

@[simp] theorem get_set_self (k : String) (v : MVal α) (m : Meta α) : (m.set k v).get k = some v := by
  induction m with
  | nil => simp [set, get]
  | cons x m ih =>
    obtain ⟨k', v'⟩ := x
    by_cases h : k' = k
    · simp [set, get, h]
    · simp [set, get, h, ih]

theorem get_set_ne {k k' : String} (h : k' ≠ k) (v : MVal α) (m : Meta α) : (m.set k v).get k' = m.get k' := by
  induction m with
  | nil => simp [set, get, Ne.symm h]
  | cons x m ih =>
    obtain ⟨k'', v''⟩ := x
    by_cases h2 : k'' = k
    · subst h2; simp [set, get, Ne.symm h]
    · by_cases h3 : k'' = k'
      · subst h3; simp [set, get, h2]
      · simp [set, get, h2, h3, ih]

theorem get_set (k k' : String) (v : MVal α) (m : Meta α) :
    (m.set k v).get k' = if k' = k then some v else m.get k' := by
  split
  · next h => subst h; simp
  · next h => exact get_set_ne h v m

theorem set_eq_of_get {k : String} {v : MVal α} {m : Meta α} (h : m.get k = some v) : m.set k v = m := by
  induction m with
  | nil => simp at h
  | cons x m ih =>
    obtain ⟨k', v'⟩ := x
    by_cases h2 : k' = k
    · subst h2
      simp only [get, if_true, Option.some.injEq] at h
      subst h; simp [set]
    · simp only [get, h2, if_false] at h
      simp [set, h2, ih h]

@[simp] theorem set_set (k : String) (v w : MVal α) (m : Meta α) : (m.set k v).set k w = m.set k w := by
  induction m with
  | nil => simp [set]
  | cons x m ih =>
    obtain ⟨k', v'⟩ := x
    by_cases h2 : k' = k <;> simp [set, h2, ih]

/-- two columns of which one exists already can be written in either order -/
theorem set_comm {k k' : String} (h : k ≠ k') {w : MVal α} (v v' : MVal α) {m : Meta α} (hm : m.get k = some w) :
    (m.set k v).set k' v' = (m.set k' v').set k v := by
  induction m with
  | nil => simp at hm
  | cons x m ih =>
    obtain ⟨k2, v2⟩ := x
    by_cases h2 : k2 = k
    · subst h2; simp [set, h]
    · simp only [get, h2, if_false] at hm
      by_cases h3 : k2 = k'
      · subst h3; simp [set, h2]
      · simp [set, h2, h3, ih hm]

/-- the column names -/
def keys (m : Meta α) : List String := m.map Prod.fst

theorem get_eq_none_iff {k : String} {m : Meta α} : m.get k = none ↔ k ∉ m.keys := by
  induction m with
  | nil => simp [keys]
  | cons x m ih =>
    obtain ⟨k', v'⟩ := x
    by_cases h : k' = k
    · simp [get, keys, h]
    · simp [get, h, keys, Ne.symm h] at ih ⊢
      exact ih

theorem keys_set (k : String) (v : MVal α) (m : Meta α) :
    (m.set k v).keys = if k ∈ m.keys then m.keys else m.keys ++ [k] := by
  induction m with
  | nil => simp [set, keys]
  | cons x m ih =>
    obtain ⟨k', v'⟩ := x
    by_cases h : k' = k
    · simp [set, keys, h]
    · have h' : k ≠ k' := Ne.symm h
      have hc : ∀ x : Meta α, keys ((k', v') :: x) = k' :: keys x := fun _ => rfl
      simp only [set, h, if_false]
      rw [hc, hc, ih]
      by_cases hk : k ∈ keys m
      · rw [if_pos hk, if_pos (by simp [hk])]
      · rw [if_neg hk, if_neg (by simp [hk, h'])]; rfl

/-- metadata with the same columns, none repeated, and the same entries are the same -/
theorem ext_of_keys {m m' : Meta α} (hk : m.keys = m'.keys) (hn : m.keys.Nodup) (h : ∀ k, m.get k = m'.get k) :
    m = m' := by
  induction m generalizing m' with
  | nil =>
    cases m' with
    | nil => rfl
    | cons x m' => simp [keys] at hk
  | cons x m ih =>
    cases m' with
    | nil => simp [keys] at hk
    | cons y m' =>
      obtain ⟨a, b⟩ := x
      obtain ⟨c, d⟩ := y
      simp only [keys, List.map_cons, List.cons.injEq, List.nodup_cons] at hk hn
      obtain ⟨rfl, hk⟩ := hk
      have hb := h a
      simp only [get, if_true, Option.some.injEq] at hb
      subst hb
      congr 1
      apply ih hk hn.2
      intro k
      by_cases hka : a = k
      · subst hka
        have h1 : get a m = none := get_eq_none_iff.mpr hn.1
        have h2 : get a m' = none := get_eq_none_iff.mpr (by unfold keys; rw [← hk]; exact hn.1)
        rw [h1, h2]
      · have := h k
        simpa [get, hka] using this

theorem nodup_keys_set {k : String} {v : MVal α} {m : Meta α} (h : m.keys.Nodup) : (m.set k v).keys.Nodup := by
  rw [keys_set]
  split_ifs with hk
  · exact h
  · rw [List.nodup_append]
    refine ⟨h, by simp, ?_⟩
    intro a ha b hb
    simp only [List.mem_singleton] at hb
    subst hb
    rintro rfl
    exact hk ha

end Meta

/-! ## the parameter columns -/

/-- names without a space: the attribute names and the fixed columns -/
def NoSpace (s : String) : Prop := ' ' ∉ s.toList

instance (s : String) : Decidable (NoSpace s) := by unfold NoSpace; infer_instance

variable {N α : Type} [Fintype N] [DecidableEq N] [Arith α] [DecidableEq α]

/-- the column of a saved parameter -/
def paraCol (R : Registry N α) (p : String × Qty N α) : String := p.1 ++ " (" ++ R.str p.2.unit ++ ")"

theorem paraCol_space (R : Registry N α) (p : String × Qty N α) : ¬ NoSpace (paraCol R p) := by
  unfold NoSpace paraCol
  simp [String.toList_append]

theorem paraCol_inj (R : Registry N α) {p q : String × Qty N α} (hp : NoSpace p.1) (hq : NoSpace q.1)
    (h : paraCol R p = paraCol R q) : p.1 = q.1 := by
  have h' := congrArg String.toList h
  unfold paraCol at h'
  simp only [String.toList_append] at h'
  have ht := congrArg (List.takeWhile (fun c => c ≠ ' ')) h'
  have key : ∀ (a b c d : List Char), ' ' ∉ a → List.takeWhile (fun c => decide (c ≠ ' ')) (a ++ (' ' :: b) ++ c ++ d) = a := by
    intro a b c d ha
    rw [List.append_assoc, List.append_assoc, List.takeWhile_append_of_pos]
    · simp
    · intro x hx
      simp only [ne_eq, decide_eq_true_eq]
      rintro rfl
      exact ha hx
  rw [show (" (" : String).toList = [' ', '('] by rfl] at ht
  rw [key _ _ _ _ hp, key _ _ _ _ hq] at ht
  exact String.toList_injective ht

/-- writing a list of columns with distinct names -/
theorem foldl_set_get_mem {l : Meta α} (hn : l.keys.Nodup) (m : Meta α) {kv : String × MVal α} (h : kv ∈ l) :
    (l.foldl (fun m kv => m.set kv.1 kv.2) m).get kv.1 = some kv.2 := by
  induction l generalizing m with
  | nil => simp at h
  | cons x l ih =>
    simp only [Meta.keys, List.map_cons, List.nodup_cons] at hn
    simp only [List.foldl_cons]
    rcases List.mem_cons.mp h with rfl | h
    · have : ∀ (l : Meta α) (m : Meta α), kv.1 ∉ l.keys → (l.foldl (fun m kv => m.set kv.1 kv.2) m).get kv.1 = m.get kv.1 := by
        intro l
        induction l with
        | nil => intro m _; rfl
        | cons y l ihl =>
          intro m hm
          simp only [Meta.keys, List.map_cons, List.mem_cons, not_or] at hm
          simp only [List.foldl_cons]
          rw [ihl _ hm.2, Meta.get_set_ne hm.1]
      rw [this l _ hn.1, Meta.get_set_self]
    · exact ih hn.2 _ h

theorem foldl_set_get_not_mem {l : Meta α} (m : Meta α) {k : String} (h : k ∉ l.keys) :
    (l.foldl (fun m kv => m.set kv.1 kv.2) m).get k = m.get k := by
  induction l generalizing m with
  | nil => rfl
  | cons y l ihl =>
    simp only [Meta.keys, List.map_cons, List.mem_cons, not_or] at h
    simp only [List.foldl_cons]
    rw [ihl _ h.2, Meta.get_set_ne h.1]

theorem foldl_set_eq {l : Meta α} (m : Meta α) (h : ∀ kv ∈ l, m.get kv.1 = some kv.2) :
    l.foldl (fun m kv => m.set kv.1 kv.2) m = m := by
  induction l with
  | nil => rfl
  | cons y l ih =>
    simp only [List.foldl_cons]
    rw [Meta.set_eq_of_get (h y (by simp))]
    exact ih fun kv hkv => h kv (by simp [hkv])

theorem foldl_set_keys {l : Meta α} {m m' : Meta α} (h : m.keys = m'.keys) :
    (l.foldl (fun m kv => m.set kv.1 kv.2) m).keys = (l.foldl (fun m kv => m.set kv.1 kv.2) m').keys := by
  induction l generalizing m m' with
  | nil => exact h
  | cons y l ih =>
    simp only [List.foldl_cons]
    apply ih
    rw [Meta.keys_set, Meta.keys_set, h]

theorem foldl_set_nodup {l : Meta α} {m : Meta α} (h : m.keys.Nodup) :
    (l.foldl (fun m kv => m.set kv.1 kv.2) m).keys.Nodup := by
  induction l generalizing m with
  | nil => exact h
  | cons y l ih => exact ih (Meta.nodup_keys_set h)

end TwoLayer
