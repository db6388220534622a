import Verif.Spec.Copies
import Verif.Proofs.InterruptRun

/-! # Copies of a model object: the heap of output arrays -/

set_option linter.unusedSimpArgs false
set_option linter.unusedSectionVars false

namespace TwoLayer
namespace Copying
variable {α Args Op σ : Type} (C : Copying α Args Op σ)

/-- what the proofs use of a class -/
structure Laws where
  outs_with : ∀ m t, C.outs (C.withOuts m t) = t
  with_with : ∀ m t t', C.withOuts (C.withOuts m t) t' = C.withOuts m t'
  with_outs : ∀ m, C.withOuts m (C.outs m) = m
  /-- what is in no array -/
  κ : Type
  rest : σ → κ
  rest_with : ∀ m t, rest (C.withOuts m t) = rest m
  congr : ∀ op m m', rest m = rest m' → rest (C.call op m).1 = rest (C.call op m').1
  merge : ∀ op m m', rest m = rest m' → C.rebinds op m → C.call op m = C.call op m'

/-! ## programs -/

theorem execs_append (p p' : List (CEvent Args Op)) : C.execs (p ++ p') = p'.foldl C.exec (C.execs p) := List.foldl_append

theorem execs_snoc (p : List (CEvent Args Op)) (e : CEvent Args Op) : C.execs (p ++ [e]) = C.exec (C.execs p) e := by
  rw [execs_append]; rfl

/-! ## reading -/

theorem read_append {cells : List (Outs α)} {o : CObj σ} (h : o.ref < cells.length) (t : Outs α) :
    C.read (cells ++ [t]) o = C.read cells o := by
  simp only [read, List.getElem?_append_left h]

theorem read_set {cells : List (Outs α)} {o : CObj σ} {r : Nat} (h : r ≠ o.ref) (t : Outs α) :
    C.read (cells.set r t) o = C.read cells o := by
  simp only [read, List.getElem?_set_ne h]

variable {C} (L : C.Laws)
include L

theorem Laws.read_own {cells : List (Outs α)} {r : Nat} (h : r < cells.length) (m : σ) :
    C.read (cells.set r (C.outs m)) ⟨r, m⟩ = m := by
  simp [read, h, L.with_outs]

theorem Laws.read_new (cells : List (Outs α)) (m : σ) : C.read (cells ++ [C.outs m]) ⟨cells.length, m⟩ = m := by
  simp [read, L.with_outs]

theorem Laws.rest_read (cells : List (Outs α)) (o : CObj σ) : L.rest (C.read cells o) = L.rest o.state := L.rest_with _ _

/-! ## what is in no array -/

theorem Laws.rest_exec (w : CWorld α σ) (v : List σ) (h : w.objs.map (fun o : CObj σ => L.rest o.state) = v.map L.rest) (e : CEvent Args Op) :
    (C.exec w e).objs.map (fun o : CObj σ => L.rest o.state) = (C.apart v e).map L.rest := by
  have hget : ∀ i : Nat, (w.objs[i]?).map (fun o : CObj σ => L.rest o.state) = (v[i]?).map L.rest := fun i => by
    have := congrArg (fun l => l[i]?) h
    simpa using this
  cases e with
  | create x =>
    simp only [exec, apart]
    cases C.init x with
    | error e => exact h
    | ok m => simp [h]
  | copy i =>
    have hi := hget i
    simp only [exec, apart]
    cases h1 : w.objs[i]? with
    | none =>
      cases h2 : v[i]? with
      | none => exact h
      | some m => rw [h1, h2] at hi; cases hi
    | some o =>
      cases h2 : v[i]? with
      | none => rw [h1, h2] at hi; cases hi
      | some m =>
        rw [h1, h2] at hi
        simp [h, Option.some.inj hi]
  | deepcopy i =>
    have hi := hget i
    simp only [exec, apart]
    cases h1 : w.objs[i]? with
    | none =>
      cases h2 : v[i]? with
      | none => exact h
      | some m => rw [h1, h2] at hi; cases hi
    | some o =>
      cases h2 : v[i]? with
      | none => rw [h1, h2] at hi; cases hi
      | some m =>
        rw [h1, h2] at hi
        simp [h, L.rest_read, Option.some.inj hi]
  | call i op =>
    have hi := hget i
    simp only [exec, apart]
    cases h1 : w.objs[i]? with
    | none =>
      cases h2 : v[i]? with
      | none => exact h
      | some m => rw [h1, h2] at hi; cases hi
    | some o =>
      cases h2 : v[i]? with
      | none => rw [h1, h2] at hi; cases hi
      | some m =>
        rw [h1, h2] at hi
        have hc : L.rest (C.call op (C.read w.cells o)).1 = L.rest (C.call op m).1 :=
          L.congr _ _ _ ((L.rest_read _ _).trans (Option.some.inj hi))
        simp only
        split <;> simp [List.map_set, h, hc]

theorem Laws.rest_execs (p : List (CEvent Args Op)) :
    (C.execs p).objs.map (fun o : CObj σ => L.rest o.state) = (p.foldl C.apart []).map L.rest := by
  induction p using List.reverseRecOn with
  | nil => rfl
  | append_singleton p e ih =>
    rw [execs_snoc, List.foldl_append]
    exact L.rest_exec _ _ ih e

/-- what is in no array is as in a program of independent objects -/
theorem Laws.rest_obj (p : List (CEvent Args Op)) (i : Nat) : (C.obj p i).map L.rest = (C.objApart p i).map L.rest := by
  have := congrArg (fun l => l[i]?) (L.rest_execs p)
  simp only [List.getElem?_map] at this
  simp only [obj, objApart, Option.map_map, ← this]
  congr 1
  funext o
  exact L.rest_read _ _

/-! ## without `copy.copy` -/

/-- every array belongs to one object -/
def Own (w : CWorld α σ) (v : List σ) : Prop :=
  (∀ o ∈ w.objs, o.ref < w.cells.length) ∧ (w.objs.map CObj.ref).Nodup ∧ w.objs.map (C.read w.cells) = v

omit L in
private theorem getElem?_lt {β : Type} {l : List β} {i : Nat} {x : β} (h : l[i]? = some x) : i < l.length :=
  (List.getElem?_eq_some_iff.mp h).1

theorem Laws.own_exec {w : CWorld α σ} {v : List σ} (h : Own (C := C) w v) {e : CEvent Args Op} (he : ∀ i, e ≠ .copy i) :
    Own (C := C) (C.exec w e) (C.apart v e) := by
  obtain ⟨h1, h2, h3⟩ := h
  have hget : ∀ i : Nat, (w.objs[i]?).map (C.read w.cells) = v[i]? := fun i => by
    rw [← h3, List.getElem?_map]
  have hnew : ∀ m : σ, Own (C := C) (⟨w.cells ++ [C.outs m], w.objs ++ [⟨w.cells.length, m⟩]⟩ : CWorld α σ) (v ++ [m]) := by
    intro m
    refine ⟨?_, ?_, ?_⟩
    · intro o ho
      rcases List.mem_append.mp ho with ho | ho
      · have := h1 o ho; simp; omega
      · rw [List.mem_singleton.mp ho]; simp
    · rw [List.map_append, List.nodup_append]
      refine ⟨h2, by simp, ?_⟩
      intro a ha b hb
      obtain ⟨o, ho, rfl⟩ := List.mem_map.mp ha
      simp only [List.map_cons, List.map_nil, List.mem_singleton] at hb
      have := h1 o ho
      omega
    · rw [List.map_append, ← h3]
      refine congrArg₂ _ (List.map_congr_left fun o ho => C.read_append (h1 o ho) _) ?_
      simp [L.read_new]
  cases e with
  | create x =>
    simp only [exec, apart]
    cases C.init x with
    | error e => exact ⟨h1, h2, h3⟩
    | ok m => exact hnew m
  | copy i => exact absurd rfl (he i)
  | deepcopy i =>
    have hi := hget i
    simp only [exec, apart]
    cases h4 : w.objs[i]? with
    | none => rw [h4] at hi; rw [← hi]; exact ⟨h1, h2, h3⟩
    | some o =>
      rw [h4] at hi; rw [← hi]
      exact hnew _
  | call i op =>
    have hi := hget i
    simp only [exec, apart]
    cases h4 : w.objs[i]? with
    | none => rw [h4] at hi; rw [← hi]; exact ⟨h1, h2, h3⟩
    | some o =>
      rw [h4] at hi; rw [← hi]
      simp only [Option.map_some]
      have hil : i < w.objs.length := getElem?_lt h4
      have hio : w.objs[i] = o := (List.getElem?_eq_some_iff.mp h4).2
      have hom : o ∈ w.objs := List.mem_of_getElem? h4
      have hne : ∀ (j : Nat) (hj : j < w.objs.length), j ≠ i → (w.objs[j]).ref ≠ o.ref := by
        intro j hj hji heq
        refine hji ((List.Nodup.getElem_inj_iff h2 (i := j) (j := i) (hi := by simpa using hj) (hj := by simpa using hil)).mp ?_)
        simp [hio, heq]
      split
      · refine ⟨?_, ?_, ?_⟩
        · intro o' ho'
          rcases List.mem_or_eq_of_mem_set ho' with ho' | rfl
          · have := h1 o' ho'; simp; omega
          · simp
        · rw [List.map_set]
          refine List.Nodup.set h2 ?_
          intro hm
          obtain ⟨o', ho', he'⟩ := List.mem_map.mp hm
          have := h1 o' ho'
          simp at he'
          omega
        · rw [List.map_set, L.read_new, ← h3]
          congr 1
          exact List.map_congr_left fun o' ho' => C.read_append (h1 o' ho') _
      · refine ⟨?_, ?_, ?_⟩
        · intro o' ho'
          rcases List.mem_or_eq_of_mem_set ho' with ho' | rfl
          · have := h1 o' ho'; simpa using this
          · have := h1 o hom; simpa using this
        · rw [List.map_set]
          have : (w.objs.map CObj.ref).set i o.ref = w.objs.map CObj.ref := by
            apply List.ext_getElem (by simp)
            intro j hj hj'
            rw [List.getElem_set]
            split
            · rename_i hij; subst hij; simp [hio]
            · rfl
          simp only [this]
          exact h2
        · rw [List.map_set, L.read_own (h1 o hom), ← h3]
          apply List.ext_getElem (by simp)
          intro j hj hj'
          rw [List.getElem_set, List.getElem_set]
          split
          · rfl
          · rename_i hij
            simp only [List.getElem_map]
            exact C.read_set (fun h => hne j (by simpa using hj) (fun h' => hij h'.symm) h.symm) _

theorem Laws.own_execs (p : List (CEvent Args Op)) (hp : ∀ i, CEvent.copy i ∉ p) :
    Own (C := C) (C.execs p) (p.foldl C.apart []) := by
  induction p using List.reverseRecOn with
  | nil => exact ⟨fun o ho => (by cases ho), List.nodup_nil, rfl⟩
  | append_singleton p e ih =>
    rw [execs_snoc, List.foldl_append]
    exact L.own_exec (ih fun i hi => hp i (by simp [hi])) fun i hi => hp i (by simp [hi])

/-- without `copy.copy`, a program of independent objects -/
theorem Laws.deep (p : List (CEvent Args Op)) (hp : ∀ i, CEvent.copy i ∉ p) (i : Nat) : C.obj p i = C.objApart p i := by
  rw [obj, objApart, ← (L.own_execs p hp).2.2, List.getElem?_map]

/-! ## with `copy.copy` -/

omit L in
theorem refs_exec {w : CWorld α σ} (h : ∀ o ∈ w.objs, o.ref < w.cells.length) (e : CEvent Args Op) :
    ∀ o ∈ (C.exec w e).objs, o.ref < (C.exec w e).cells.length := by
  have hadd : ∀ (t : Outs α) (m : σ), ∀ o ∈ w.objs ++ [⟨w.cells.length, m⟩], o.ref < (w.cells ++ [t]).length := by
    intro t m o ho
    rcases List.mem_append.mp ho with ho | ho
    · have := h o ho; simp; omega
    · rw [List.mem_singleton.mp ho]; simp
  cases e with
  | create x =>
    simp only [exec]
    cases C.init x with
    | error e => exact h
    | ok m => exact hadd _ m
  | copy i =>
    simp only [exec]
    cases h4 : w.objs[i]? with
    | none => exact h
    | some o =>
      intro o' ho'
      rcases List.mem_append.mp ho' with ho' | ho'
      · exact h o' ho'
      · rw [List.mem_singleton.mp ho']; exact h o (List.mem_of_getElem? h4)
  | deepcopy i =>
    simp only [exec]
    cases h4 : w.objs[i]? with
    | none => exact h
    | some o => exact hadd _ _
  | call i op =>
    simp only [exec]
    cases h4 : w.objs[i]? with
    | none => exact h
    | some o =>
      simp only
      split
      · intro o' ho'
        rcases List.mem_or_eq_of_mem_set ho' with ho' | rfl
        · have := h o' ho'; simp; omega
        · simp
      · intro o' ho'
        rcases List.mem_or_eq_of_mem_set ho' with ho' | rfl
        · have := h o' ho'; simpa using this
        · have := h o (List.mem_of_getElem? h4); simpa using this

omit L in
theorem refs_execs (p : List (CEvent Args Op)) : ∀ o ∈ (C.execs p).objs, o.ref < (C.execs p).cells.length := by
  induction p using List.reverseRecOn with
  | nil => intro o ho; cases ho
  | append_singleton p e ih => rw [execs_snoc]; exact refs_exec ih e

/-- the `i`-th object is `m`, and no other object has its arrays -/
def Private (w : CWorld α σ) (i : Nat) (m : σ) : Prop :=
  (∀ o ∈ w.objs, o.ref < w.cells.length) ∧
    ∃ o, w.objs[i]? = some o ∧ C.read w.cells o = m ∧ ∀ j o', j ≠ i → w.objs[j]? = some o' → o'.ref ≠ o.ref

/-- a call that makes new arrays -/
theorem Laws.private_rebind {w : CWorld α σ} (h : ∀ o ∈ w.objs, o.ref < w.cells.length) {i : Nat} {o : CObj σ}
    (hi : w.objs[i]? = some o) {op : Op} (hr : C.rebinds op (C.read w.cells o)) :
    Private (C := C) (C.exec w (.call i op)) i (C.call op (C.read w.cells o)).1 := by
  refine ⟨refs_exec h _, ⟨w.cells.length, (C.call op (C.read w.cells o)).1⟩, ?_, ?_, ?_⟩
  · simp only [exec, hi, hr, if_true, List.getElem?_set_self (getElem?_lt hi)]
  · simp only [exec, hi, hr, if_true, L.read_new]
  · intro j o' hj ho'
    simp only [exec, hi, hr, if_true, List.getElem?_set_ne (Ne.symm hj)] at ho'
    have := h o' (List.mem_of_getElem? ho')
    simp only
    omega

theorem Laws.private_exec {w : CWorld α σ} {i : Nat} {m : σ} (h : Private (C := C) w i m) {e : CEvent Args Op} (he : e ≠ .copy i) :
    Private (C := C) (C.exec w e) i ((callsOn i [e]).foldl (fun m op => (C.call op m).1) m) := by
  obtain ⟨h1, o, h2, h3, h4⟩ := h
  have hil : i < w.objs.length := getElem?_lt h2
  have ho := h1 o (List.mem_of_getElem? h2)
  have hadd : ∀ m' : σ, Private (C := C) (⟨w.cells ++ [C.outs m'], w.objs ++ [⟨w.cells.length, m'⟩]⟩ : CWorld α σ) i m := by
    intro m'
    refine ⟨?_, o, ?_, ?_, ?_⟩
    · intro o' ho'
      rcases List.mem_append.mp ho' with ho' | ho'
      · have := h1 o' ho'; simp; omega
      · rw [List.mem_singleton.mp ho']; simp
    · rw [List.getElem?_append_left hil, h2]
    · rw [C.read_append ho, h3]
    · intro j o' hj ho'
      rw [List.getElem?_append] at ho'
      split at ho'
      · exact h4 j o' hj ho'
      · have : o' = ⟨w.cells.length, m'⟩ := by
          have := List.mem_of_getElem? ho'
          simpa using this
        rw [this]
        simp only
        omega
  cases e with
  | create x =>
    simp only [exec]
    cases C.init x with
    | error e => exact ⟨h1, o, h2, h3, h4⟩
    | ok m' => exact hadd m'
  | copy j =>
    have hj : j ≠ i := fun h => he (by rw [h])
    simp only [exec]
    cases h5 : w.objs[j]? with
    | none => exact ⟨h1, o, h2, h3, h4⟩
    | some oj =>
      refine ⟨?_, o, ?_, h3, ?_⟩
      · intro o' ho'
        rcases List.mem_append.mp ho' with ho' | ho'
        · exact h1 o' ho'
        · rw [List.mem_singleton.mp ho']; exact h1 oj (List.mem_of_getElem? h5)
      · rw [List.getElem?_append_left hil, h2]
      · intro k o' hk ho'
        rw [List.getElem?_append] at ho'
        split at ho'
        · exact h4 k o' hk ho'
        · have : o' = oj := by
            have := List.mem_of_getElem? ho'
            simpa using this
          rw [this]
          exact h4 j oj hj h5
  | deepcopy j =>
    simp only [exec]
    cases h5 : w.objs[j]? with
    | none => exact ⟨h1, o, h2, h3, h4⟩
    | some oj => exact hadd _
  | call j op =>
    by_cases hj : j = i
    · subst hj
      have hc : callsOn j [CEvent.call (Args := Args) j op] = [op] := by simp [callsOn]
      rw [hc, List.foldl_cons, List.foldl_nil, ← h3]
      by_cases hr : C.rebinds op (C.read w.cells o)
      · exact L.private_rebind h1 h2 hr
      · refine ⟨refs_exec h1 _, ⟨o.ref, (C.call op (C.read w.cells o)).1⟩, ?_, ?_, ?_⟩
        · simp only [exec, h2, hr, if_false, List.getElem?_set_self hil]
        · simp only [exec, h2, hr, if_false, L.read_own ho]
        · intro k o' hk ho'
          simp only [exec, h2, hr, if_false, List.getElem?_set_ne (Ne.symm hk)] at ho'
          exact h4 k o' hk ho'
    · have hc : callsOn i [CEvent.call (Args := Args) j op] = [] := by simp [callsOn, hj]
      rw [hc, List.foldl_nil]
      cases h5 : w.objs[j]? with
      | none => simp only [exec, h5]; exact ⟨h1, o, h2, h3, h4⟩
      | some oj =>
        have hne : oj.ref ≠ o.ref := h4 j oj hj h5
        by_cases hr : C.rebinds op (C.read w.cells oj)
        · refine ⟨refs_exec h1 _, o, ?_, ?_, ?_⟩
          · simp only [exec, h5, hr, if_true, List.getElem?_set_ne hj, h2]
          · simp only [exec, h5, hr, if_true, C.read_append ho, h3]
          · intro k o' hk ho'
            simp only [exec, h5, hr, if_true] at ho'
            by_cases hkj : k = j
            · subst hkj
              rw [List.getElem?_set_self (getElem?_lt h5)] at ho'
              rw [← Option.some.inj ho']
              simp only
              omega
            · rw [List.getElem?_set_ne (Ne.symm hkj)] at ho'
              exact h4 k o' hk ho'
        · refine ⟨refs_exec h1 _, o, ?_, ?_, ?_⟩
          · simp only [exec, h5, hr, if_false, List.getElem?_set_ne hj, h2]
          · simp only [exec, h5, hr, if_false]
            rw [C.read_set hne, h3]
          · intro k o' hk ho'
            simp only [exec, h5, hr, if_false] at ho'
            by_cases hkj : k = j
            · subst hkj
              rw [List.getElem?_set_self (getElem?_lt h5)] at ho'
              rw [← Option.some.inj ho']
              exact hne
            · rw [List.getElem?_set_ne (Ne.symm hkj)] at ho'
              exact h4 k o' hk ho'

omit L in
theorem callsOn_cons (i : Nat) (e : CEvent Args Op) (p : List (CEvent Args Op)) : callsOn i (e :: p) = callsOn i [e] ++ callsOn i p := by
  simp only [callsOn]
  rw [← List.filterMap_append]; rfl

theorem Laws.private_execs (p : List (CEvent Args Op)) : ∀ {w : CWorld α σ} {i : Nat} {m : σ}, Private (C := C) w i m →
    CEvent.copy i ∉ p → Private (C := C) (p.foldl C.exec w) i ((callsOn i p).foldl (fun m op => (C.call op m).1) m) := by
  induction p with
  | nil => intro w i m h _; exact h
  | cons e p ih =>
    intro w i m h hp
    rw [callsOn_cons, List.foldl_append, List.foldl_cons]
    exact ih (L.private_exec h fun he => hp (by simp [he])) fun hh => hp (by simp [hh])

/-- from a call that makes new arrays until it is copied, an object is what its own calls make of it -/
theorem Laws.own (p p' : List (CEvent Args Op)) {i : Nat} {m : σ} (hm : C.obj p i = some m) {op : Op} (hr : C.rebinds op m)
    (hp : CEvent.copy i ∉ p') :
    C.obj (p ++ .call i op :: p') i = some ((op :: callsOn i p').foldl (fun m op => (C.call op m).1) m) := by
  obtain ⟨o, ho, rfl⟩ := Option.map_eq_some_iff.mp hm
  obtain ⟨-, o', h1, h2, -⟩ := L.private_execs p' (L.private_rebind (refs_execs p) ho hr) hp
  rw [obj, execs_append, List.foldl_cons, h1, Option.map_some, h2]
  rfl

/-- independent objects -/
theorem Laws.apart_calls (p : List (CEvent Args Op)) {i : Nat} : ∀ {v : List σ} {m : σ}, v[i]? = some m →
    (p.foldl C.apart v)[i]? = some ((callsOn i p).foldl (fun m op => (C.call op m).1) m) := by
  induction p with
  | nil => intro v m h; exact h
  | cons e p ih =>
    intro v m h
    rw [callsOn_cons, List.foldl_append, List.foldl_cons]
    refine ih ?_
    have hil := getElem?_lt h
    cases e with
    | create x =>
      simp only [apart]
      cases C.init x with
      | error e => exact h
      | ok m' => simpa [List.getElem?_append_left hil, callsOn] using h
    | copy j | deepcopy j =>
      simp only [apart]
      cases v[j]? with
      | none => exact h
      | some m' => simpa [List.getElem?_append_left hil, callsOn] using h
    | call j op =>
      simp only [apart]
      by_cases hj : j = i
      · subst hj
        simp [h, callsOn, List.getElem?_set_self hil]
      · cases v[j]? with
        | none => simpa [callsOn, hj] using h
        | some m' => simpa [callsOn, hj, List.getElem?_set_ne hj] using h

/-- from a call that makes new arrays until it is copied, an object is what it would be among independent objects -/
theorem Laws.sync (p p' : List (CEvent Args Op)) {i : Nat} {m : σ} (hm : C.obj p i = some m) {op : Op} (hr : C.rebinds op m)
    (hp : CEvent.copy i ∉ p') : C.obj (p ++ .call i op :: p') i = C.objApart (p ++ .call i op :: p') i := by
  have hf := L.rest_obj p i
  rw [hm, Option.map_some] at hf
  obtain ⟨m', hm', hf'⟩ := Option.map_eq_some_iff.mp hf.symm
  rw [L.own p p' hm hr hp, objApart, List.foldl_append, L.apart_calls _ hm']
  have : callsOn i (CEvent.call i op :: p') = op :: callsOn i p' := by simp [callsOn]
  rw [this, List.foldl_cons, List.foldl_cons, L.merge op m m' hf'.symm hr]
/-- after `copy.copy`, what either object computes is in both, until one of them gets new arrays -/
theorem Laws.alias (p : List (CEvent Args Op)) {i : Nat} {m : σ} (hm : C.obj p i = some m) :
    ∃ j, C.obj p j = none ∧ C.obj (p ++ [.copy i]) j = some m ∧ ∀ op, ¬ C.rebinds op m →
      C.obj (p ++ [.copy i, .call j op]) i = some (C.withOuts m (C.outs (C.call op m).1)) ∧
      C.obj (p ++ [.copy i, .call j op]) j = some (C.call op m).1 ∧
      C.obj (p ++ [.copy i, .call i op]) i = some (C.call op m).1 ∧
      C.obj (p ++ [.copy i, .call i op]) j = some (C.withOuts m (C.outs (C.call op m).1)) := by
  obtain ⟨o, ho, rfl⟩ := Option.map_eq_some_iff.mp hm
  have hil : i < (C.execs p).objs.length := getElem?_lt ho
  have hij : (C.execs p).objs.length ≠ i := by omega
  have hr := refs_execs p o (List.mem_of_getElem? ho)
  have hset : ∀ m' : σ, C.read ((C.execs p).cells.set o.ref (C.outs m')) o = C.withOuts (C.read (C.execs p).cells o) (C.outs m') := by
    intro m'
    simp [read, hr, L.with_with]
  have e1 : C.execs (p ++ [.copy i]) = ⟨(C.execs p).cells, (C.execs p).objs ++ [o]⟩ := by
    rw [execs_snoc]; simp only [exec, ho]
  have hi : ((C.execs p).objs ++ [o])[i]? = some o := by rw [List.getElem?_append_left hil, ho]
  have hj : ((C.execs p).objs ++ [o])[(C.execs p).objs.length]? = some o := by simp
  refine ⟨(C.execs p).objs.length, by simp [obj], ?_, fun op hop => ?_⟩
  · simp [obj, e1]
  have e2 : ∀ k, ((C.execs p).objs ++ [o])[k]? = some o → C.execs (p ++ [.copy i, .call k op]) =
      ⟨(C.execs p).cells.set o.ref (C.outs (C.call op (C.read (C.execs p).cells o)).1),
        ((C.execs p).objs ++ [o]).set k ⟨o.ref, (C.call op (C.read (C.execs p).cells o)).1⟩⟩ := by
    intro k hk
    have : p ++ [.copy i, .call k op] = (p ++ [.copy i]) ++ [.call k op] := by simp
    rw [this, execs_snoc, e1]
    simp only [exec, hk, hop, if_false]
  refine ⟨?_, ?_, ?_, ?_⟩
  · simp only [obj, e2 _ hj, List.getElem?_set_ne hij, hi, Option.map_some, hset]
  · simp only [obj, e2 _ hj, List.getElem?_set_self (getElem?_lt hj), Option.map_some, L.read_own hr]
  · simp only [obj, e2 _ hi, List.getElem?_set_self (getElem?_lt hi), Option.map_some, L.read_own hr]
  · simp only [obj, e2 _ hi, List.getElem?_set_ne (Ne.symm hij), hj, Option.map_some, hset]
end Copying

/-! ## calls that see no array -/

/-- what a call does to `f` of an object, and what it returns, depends on `f` of it -/
def Py.Sees {σ κ β : Type} (f : σ → κ) (x : Py σ β) : Prop :=
  ∀ m m', f m = f m' → f (x m).1 = f (x m').1 ∧ (x m).2 = (x m').2

/-- from where `h` goes through, `x` does the same on two objects with the same `f` -/
def Py.Joins {σ κ β γ : Type} (f : σ → κ) (h : Py σ γ) (x : Py σ β) : Prop :=
  ∀ m m', f m = f m' → Ok (h m).2 → x m = x m'

namespace Py.Sees
variable {σ κ β γ : Type} {f : σ → κ}

theorem pure (b : β) : Py.Sees f (pure b : Py σ β) := fun _ _ h => ⟨h, rfl⟩
theorem throw (e : Err) : Py.Sees f (Py.throw e : Py σ β) := fun _ _ h => ⟨h, rfl⟩
theorem lift (r : Except Err β) : Py.Sees f (Py.lift r : Py σ β) := fun _ _ h => ⟨h, rfl⟩

theorem bind {x : Py σ β} {k : β → Py σ γ} (hx : Py.Sees f x) (hk : ∀ b, Py.Sees f (k b)) : Py.Sees f (x >>= k) := by
  intro m m' h
  obtain ⟨h1, h2⟩ := hx m m' h
  simp only [Py.bind_apply]
  rcases e1 : x m with ⟨s, _ | b⟩ <;> rcases e2 : x m' with ⟨s', _ | b'⟩ <;> rw [e1, e2] at h1 h2
  · exact ⟨h1, by simpa using h2⟩
  · cases h2
  · cases h2
  · cases h2
    exact hk b _ _ h1
end Py.Sees

namespace Py.Joins
variable {σ κ β γ δ : Type} {f : σ → κ}

theorem bind {a : Py σ δ} {h : δ → Py σ γ} {x : δ → Py σ β} (ha : Py.Sees f a) (hx : ∀ d, Py.Joins f (h d) (x d)) :
    Py.Joins f (a >>= h) (a >>= x) := by
  intro m m' hf hok
  obtain ⟨h1, h2⟩ := ha m m' hf
  simp only [Py.bind_apply] at hok ⊢
  rcases e1 : a m with ⟨s, _ | b⟩ <;> rcases e2 : a m' with ⟨s', _ | b'⟩ <;> rw [e1, e2] at h1 h2 <;> rw [e1] at hok
  · exact hok.elim
  · exact hok.elim
  · cases h2
  · cases h2
    exact hx b _ _ h1 hok

theorem start {h : Py σ Unit} (k : Py σ β) (hh : ∀ m m', f m = f m' → Ok (h m).2 → h m = h m') :
    Py.Joins f h (h >>= fun _ => k) := by
  intro m m' hf hok
  simp only [Py.bind_apply, hh m m' hf hok]

theorem failed (e : Err) (x : Py σ β) : Py.Joins f (Py.throw e : Py σ γ) x := fun _ _ _ hok => hok.elim
end Py.Joins

end TwoLayer
