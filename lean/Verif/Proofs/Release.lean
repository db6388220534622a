import Verif.Spec.Release

/-! # `sdist` and `build_py` on a disk -/

set_option linter.unusedSimpArgs false

namespace TwoLayer.Version

/-! ## sequences -/

theorem execActs_append (xs ys : List Act) (d : Disk) :
    execActs d (xs ++ ys) = if (execActs d xs).2 then execActs (execActs d xs).1 ys else execActs d xs := by
  induction xs generalizing d with
  | nil => rfl
  | cons a xs ih =>
    cases h : a.exec d with
    | none => simp [execActs, h]
    | some d' => simp only [List.cons_append, execActs, h, ih]

/-- `P` before and after every act -/
def Always (P : Disk → Prop) : Disk → List Act → Prop
  | d, [] => P d
  | d, a :: rest => P d ∧ ∀ d', a.exec d = some d' → Always P d' rest

theorem Always.head {P : Disk → Prop} {d : Disk} {acts : List Act} (h : Always P d acts) : P d := by
  cases acts with
  | nil => exact h
  | cons a rest => exact h.1

theorem Always.crashed {P : Disk → Prop} {acts : List Act} : ∀ {d : Disk}, Always P d acts → ∀ k, P (crashed k acts d) := by
  induction acts with
  | nil => intro d h k; simpa [Version.crashed, execActs, Always] using h
  | cons a rest ih =>
    intro d h k
    cases k with
    | zero => exact h.1
    | succ k =>
      simp only [Version.crashed, List.take_succ_cons, execActs]
      cases e : a.exec d with
      | none => exact h.1
      | some d' => exact ih (h.2 d' e) k

theorem Always.append {P : Disk → Prop} {xs ys : List Act} : ∀ {d : Disk}, Always P d xs →
    (∀ d', execActs d xs = (d', true) → Always P d' ys) → Always P d (xs ++ ys) := by
  induction xs with
  | nil => intro d _ h; exact h d rfl
  | cons a xs ih =>
    intro d h1 h2
    refine ⟨h1.1, fun d' e => ih (h1.2 d' e) fun d'' e' => h2 d'' ?_⟩
    simp only [execActs, e, e']

/-! ## what stays -/

/-- the disk outside of `base` is that of `d0` -/
structure Kept (d0 : Disk) (base : Path) (d : Disk) : Prop where
  names : ∀ p, Outside base p → d.names p = d0.names p
  data : ∀ n < d0.next, d.data n = d0.data n
  next : d0.next ≤ d.next
  valid : d.Valid

theorem Kept.refl {d : Disk} (h : d.Valid) (base : Path) : Kept d base d := ⟨fun _ _ => rfl, fun _ _ => rfl, le_rfl, h⟩

theorem Kept.trans {d0 d1 d2 : Disk} {base : Path} (h1 : Kept d0 base d1) (h2 : Kept d1 base d2) : Kept d0 base d2 where
  names p hp := (h2.names p hp).trans (h1.names p hp)
  data n hn := (h2.data n (hn.trans_le h1.next)).trans (h1.data n hn)
  next := h1.next.trans h2.next
  valid := h2.valid

theorem Kept.read {d0 d : Disk} {base : Path} (hv : d0.Valid) (h : Kept d0 base d) {p : Path} (hp : Outside base p) :
    d.read p = d0.read p := by
  simp only [Disk.read, h.names p hp]
  cases e : d0.names p with
  | none => rfl
  | some n => simp [h.data n (hv p n e)]

theorem ne_of_outside {base p q : Path} (hp : Outside base p) : p ≠ base ++ q := by
  rintro rfl
  exact hp (List.prefix_append _ _)

section
variable {d0 d : Disk} {base : Path}

theorem Kept.setName (h : Kept d0 base d) (rel : Path) {n : Option Nat} (hn : ∀ k ∈ n, k < d.next) :
    Kept d0 base (d.setName (base ++ rel) n) where
  names p hp := by
    simp only [Disk.setName, if_neg (ne_of_outside hp)]
    exact h.names p hp
  data := h.data
  next := h.next
  valid p k hk := by
    simp only [Disk.setName] at hk ⊢
    split at hk
    · exact hn k (by simp [hk])
    · exact h.valid p k hk

theorem Kept.setData (h : Kept d0 base d) {n : Nat} (hn : d0.next ≤ n) (s : Str) : Kept d0 base (d.setData n s) where
  names := h.names
  data k hk := by
    simp only [Disk.setData]
    rw [if_neg (by omega)]
    exact h.data k hk
  next := h.next
  valid := h.valid

theorem Kept.new (h : Kept d0 base d) (rel : Path) :
    Kept d0 base { (d.setName (base ++ rel) (some d.next)).setData d.next [] with next := d.next + 1 } where
  names p hp := by
    simp only [Disk.setName, Disk.setData, if_neg (ne_of_outside hp)]
    exact h.names p hp
  data k hk := by
    simp only [Disk.setName, Disk.setData]
    rw [if_neg (by have := h.next; omega)]
    exact h.data k hk
  next := by have := h.next; simp only; omega
  valid p k hk := by
    simp only [Disk.setName, Disk.setData] at hk ⊢
    split at hk
    · cases hk; omega
    · have := h.valid p k hk; omega

/-! ## one file -/

/-- a name without file, a new file for it, and a text in the file -/
theorem fresh_always (h : Kept d0 base d) (rel : Path) (hn : d.names (base ++ rel) = none) (a : Act)
    (ha : (∃ src, a = .copy src (base ++ rel)) ∨ ∃ s, a = .write (base ++ rel) s) :
    Always (Kept d0 base) d [.create (base ++ rel), a] := by
  refine ⟨h, fun d' e => ?_⟩
  simp only [Act.exec, hn, Option.some.injEq] at e
  have h' : Kept d0 base d' := by rw [← e]; exact h.new rel
  have hk : d'.names (base ++ rel) = some d.next := by rw [← e]; simp [Disk.setName, Disk.setData]
  refine ⟨h', fun d'' e' => ?_⟩
  rcases ha with ⟨src, rfl⟩ | ⟨s, rfl⟩
  · simp only [Act.exec, hk, Option.some.injEq] at e'
    cases hs : d'.names src with
    | none => rw [hs] at e'; rw [← e']; exact h'
    | some n => rw [hs] at e'; rw [← e']; exact h'.setData h.next _
  · simp only [Act.exec, hk, Option.some.injEq] at e'
    rw [← e']; exact h'.setData h.next _

theorem place_always (h : Kept d0 base d) (f : Placed) : Always (Kept d0 base) d (place base f) := by
  unfold place
  split
  · refine ⟨h, fun d' e => ?_⟩
    simp only [Act.exec, Option.some.injEq] at e
    have h' : Kept d0 base d' := by rw [← e]; exact h.setName _ (by simp)
    refine ⟨h', fun d'' e' => ?_⟩
    simp only [Act.exec, Option.some.injEq] at e'
    cases hs : d'.names f.src with
    | none => rw [hs] at e'; rw [← e']; exact h'
    | some n =>
      rw [hs] at e'; rw [← e']
      exact h'.setName _ (by intro k hk; cases hk; exact h'.valid _ _ hs)
  · refine ⟨h, fun d' e => ?_⟩
    simp only [Act.exec, Option.some.injEq] at e
    have h' : Kept d0 base d' := by rw [← e]; exact h.setName _ (by simp)
    exact fresh_always h' _ (by rw [← e]; simp [Disk.setName]) _ (.inl ⟨_, rfl⟩)

theorem versionFile_always (h : Kept d0 base d) (rel : Path) (i : Info) :
    Always (Kept d0 base) d (writeVersionFile (base ++ rel) i) := by
  refine ⟨h, fun d' e => ?_⟩
  simp only [Act.exec] at e
  cases hs : d.names (base ++ rel) with
  | none => rw [hs] at e; cases e
  | some n =>
    rw [hs] at e
    simp only [Option.some.injEq] at e
    have h' : Kept d0 base d' := by rw [← e]; exact h.setName _ (by simp)
    exact fresh_always h' _ (by rw [← e]; simp [Disk.setName]) _ (.inr ⟨_, rfl⟩)

theorem places_always (files : List Placed) : ∀ {d : Disk}, Kept d0 base d → Always (Kept d0 base) d (files.flatMap (place base)) := by
  induction files with
  | nil => intro d h; exact h
  | cons f rest ih =>
    intro d h
    rw [List.flatMap_cons]
    refine (place_always h f).append fun d' e => ih ?_
    have := (place_always h f).crashed (place base f).length
    rwa [Version.crashed, List.take_length, e] at this

theorem makeTree_always (h : Kept d0 base d) (files : List Placed) (v : Path) (i : Info) :
    Always (Kept d0 base) d (makeTree base files v i) := by
  refine (places_always files h).append fun d' e => versionFile_always ?_ v i
  have := (places_always files h).crashed (files.flatMap (place base)).length
  rwa [Version.crashed, List.take_length, e] at this

/-! ## what is done -/

/-- one name has a new text, the others are as they were -/
structure Put (d : Disk) (p : Path) (s : Str) (d' : Disk) : Prop where
  text : d'.read p = some s
  others : ∀ q, q ≠ p → d'.read q = d.read q
  valid : d'.Valid

theorem read_fresh (hv : d.Valid) (p : Path) (s : Str) :
    Put d p s { (d.setName p (some d.next)).setData d.next s with next := d.next + 1 } where
  text := by simp [Disk.read, Disk.setName, Disk.setData]
  others q hq := by
    simp only [Disk.read, Disk.setName, Disk.setData, if_neg hq]
    cases e : d.names q with
    | none => rfl
    | some n =>
      have := hv q n e
      simp only [Option.map_some, if_neg (show n ≠ d.next by omega)]
  valid q n hq := by
    simp only [Disk.setName, Disk.setData] at hq ⊢
    split at hq
    · cases hq; omega
    · have := hv q n hq; omega

theorem place_does (hv : d.Valid) (f : Placed) {s : Str} (hs : d.read f.src = some s) (ho : Outside base f.src) :
    ∃ d', execActs d (place base f) = (d', true) ∧ Put d (base ++ f.rel) s d' := by
  obtain ⟨n, hn, rfl⟩ := Option.map_eq_some_iff.mp hs
  have hne : f.src ≠ base ++ f.rel := ne_of_outside ho
  unfold place
  split
  · refine ⟨d.setName (base ++ f.rel) (some n), ?_, ?_, ?_, ?_⟩
    · simp only [execActs, Act.exec, Disk.setName, if_neg hne, hn, Prod.mk.injEq, and_true, Disk.mk.injEq]
      funext q
      by_cases hq : q = base ++ f.rel <;> simp [hq]
    · simp [Disk.read, Disk.setName]
    · intro q hq; simp [Disk.read, Disk.setName, hq]
    · intro q k hk
      simp only [Disk.setName] at hk ⊢
      split at hk
      · cases hk; exact hv _ _ hn
      · exact hv q k hk
  · refine ⟨_, ?_, read_fresh hv (base ++ f.rel) (d.data n)⟩
    have hlt := hv _ _ hn
    simp only [execActs, Act.exec, Disk.setName, Disk.setData, if_neg hne, hn, if_true, Prod.mk.injEq, and_true, Disk.mk.injEq]
    refine ⟨?_, ?_⟩
    · funext q
      by_cases hq : q = base ++ f.rel <;> simp [hq]
    · funext k
      by_cases hk : k = d.next <;> simp [hk, show n ≠ d.next by omega]

theorem versionFile_does (hv : d.Valid) (p : Path) (i : Info) (hp : d.read p ≠ none) :
    ∃ d', execActs d (writeVersionFile p i) = (d', true) ∧ Put d p i.file d' := by
  cases hn : d.names p with
  | none => exact absurd (by simp [Disk.read, hn]) hp
  | some n =>
    refine ⟨_, ?_, read_fresh hv p i.file⟩
    simp only [writeVersionFile, execActs, Act.exec, hn, Disk.setName, Disk.setData, if_true, Prod.mk.injEq, and_true, Disk.mk.injEq]
    refine ⟨?_, ?_⟩
    · funext q
      by_cases hq : q = p <;> simp [hq]
    · funext k
      by_cases hk : k = d.next <;> simp [hk]

theorem versionFile_missing (p : Path) (i : Info) (hp : d.read p = none) : execActs d (writeVersionFile p i) = (d, false) := by
  have hn : d.names p = none := by simpa [Disk.read] using hp
  simp only [writeVersionFile, execActs, Act.exec, hn]

/-- the files of a tree: each with the text of the last source placed there -/
theorem places_do (hv : d.Valid) (files : List Placed) : (∀ f ∈ files, f.Real d base) →
    ∃ d', execActs d (files.flatMap (place base)) = (d', true) ∧ Kept d base d' ∧
      (∀ f ∈ files, (∀ g ∈ files, g.rel = f.rel → d.read g.src = d.read f.src) → d'.read (base ++ f.rel) = d.read f.src) ∧
      (∀ f ∈ files, d'.read (base ++ f.rel) ≠ none) ∧
      ∀ q, (∀ f ∈ files, q ≠ base ++ f.rel) → d'.read q = d.read q := by
  induction files using List.reverseRecOn with
  | nil => intro _; exact ⟨d, rfl, Kept.refl hv base, by simp, by simp, fun _ _ => rfl⟩
  | append_singleton files g ih =>
    intro hr
    obtain ⟨d1, e1, k1, t1, m1, o1⟩ := ih fun f hf => hr f (by simp [hf])
    obtain ⟨hg1, hg2⟩ := hr g (by simp)
    obtain ⟨s, hs⟩ := Option.ne_none_iff_exists'.mp hg1
    obtain ⟨d2, e2, p2⟩ := place_does k1.valid g ((k1.read hv hg2).trans hs) hg2
    have hk : Kept d1 base d2 := by
      have := (place_always (Kept.refl k1.valid base) g).crashed (place base g).length
      rwa [Version.crashed, List.take_length, e2] at this
    refine ⟨d2, ?_, k1.trans hk, ?_, ?_, ?_⟩
    · rw [List.flatMap_append, execActs_append, e1]
      simpa using e2
    · intro f hf hsame
      by_cases hrel : f.rel = g.rel
      · rw [hrel, p2.text, ← hs]
        exact hsame g (by simp) hrel.symm
      · rw [p2.others _ (by simpa using hrel)]
        refine t1 f ?_ fun g' hg' => hsame g' (by simp [hg'])
        rcases List.mem_append.mp hf with hf | hf
        · exact hf
        · exact absurd (by rw [List.mem_singleton.mp hf]) hrel
    · intro f hf
      by_cases hrel : f.rel = g.rel
      · rw [hrel, p2.text]; simp
      · rw [p2.others _ (by simpa using hrel)]
        refine m1 f ?_
        rcases List.mem_append.mp hf with hf | hf
        · exact hf
        · exact absurd (by rw [List.mem_singleton.mp hf]) hrel
    · intro q hq
      rw [p2.others q (hq g (by simp))]
      exact o1 q fun f hf => hq f (by simp [hf])

theorem makeTree_does (hv : d.Valid) (files : List Placed) (hr : ∀ f ∈ files, f.Real d base) (v : Path) (i : Info)
    (hv' : ∃ f ∈ files, f.rel = v) :
    ∃ d', execActs d (makeTree base files v i) = (d', true) ∧ Kept d base d' ∧ d'.read (base ++ v) = some i.file ∧
      (∀ f ∈ files, f.rel ≠ v → (∀ g ∈ files, g.rel = f.rel → d.read g.src = d.read f.src) →
        d'.read (base ++ f.rel) = d.read f.src) ∧
      ∀ q, q ≠ base ++ v → (∀ f ∈ files, q ≠ base ++ f.rel) → d'.read q = d.read q := by
  obtain ⟨d1, e1, k1, t1, m1, o1⟩ := places_do hv files hr
  obtain ⟨f, hf, rfl⟩ := hv'
  obtain ⟨d2, e2, p2⟩ := versionFile_does k1.valid (base ++ f.rel) i (m1 f hf)
  have e : execActs d (makeTree base files f.rel i) = (d2, true) := by
    rw [makeTree, execActs_append, e1]; simpa using e2
  refine ⟨d2, e, ?_, p2.text, ?_, ?_⟩
  · have := (makeTree_always (Kept.refl hv base) files f.rel i).crashed (makeTree base files f.rel i).length
    rwa [Version.crashed, List.take_length, e] at this
  · intro g hg hne hsame
    rw [p2.others _ (by simpa using hne)]
    exact t1 g hg hsame
  · intro q hq1 hq2
    rw [p2.others q hq1]
    exact o1 q hq2

theorem makeTree_missing (hv : d.Valid) (files : List Placed) (hr : ∀ f ∈ files, f.Real d base) (v : Path) (i : Info)
    (hv' : ∀ f ∈ files, f.rel ≠ v) (hm : d.read (base ++ v) = none) :
    (execActs d (makeTree base files v i)).2 = false := by
  obtain ⟨d1, e1, k1, t1, m1, o1⟩ := places_do hv files hr
  rw [makeTree, execActs_append, e1]
  simp only [if_true]
  rw [versionFile_missing]
  rw [o1 _ fun f hf h => hv' f hf (List.append_cancel_left h).symm]
  exact hm
end

end TwoLayer.Version
