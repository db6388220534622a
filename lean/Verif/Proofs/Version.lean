import Verif.Spec.Version

/-! # Parsing and rendering versions -/

set_option linter.unusedSimpArgs false

namespace TwoLayer.Version

theorem digits_eq (n : Nat) : digits n = dec n := by
  unfold digits dec
  rw [Nat.toString_eq_repr, Nat.toList_repr]

theorem dec_digit {n : Nat} {c : Char} (h : c ∈ dec n) : c.isDigit = true :=
  Nat.isDigit_of_mem_toDigits (by omega) (by omega) h

theorem dec_ne (n : Nat) : dec n ≠ [] := Nat.toDigits_ne_nil

theorem int_dec (n : Nat) : int (dec n) = .ok n := by
  unfold int
  rw [if_pos ⟨dec_ne n, List.all_eq_true.mpr fun c hc => dec_digit hc⟩]
  unfold dec
  rw [Nat.ofDigitChars_ten_toDigits]

theorem dec_inj {a b : Nat} (h : dec a = dec b) : a = b := by
  have := int_dec a
  rw [h, int_dec b] at this
  cases this; rfl

theorem hash_isHex {h : Str} (hh : IsHash h) : h.all isHex = true := by
  rw [List.all_eq_true]
  intro c hc
  have := hh.2 c hc
  have e : "0123456789abcdef".toList = ['0','1','2','3','4','5','6','7','8','9','a','b','c','d','e','f'] := by decide
  rw [e] at this
  simp only [List.mem_cons, List.not_mem_nil, or_false] at this
  rcases this with h|h|h|h|h|h|h|h|h|h|h|h|h|h|h|h <;> subst h <;> decide

theorem isHex_ne {c : Char} (h : isHex c = true) : c ≠ '-' := by
  rintro rfl; revert h; decide

theorem isDigit_ne {c : Char} (h : c.isDigit = true) : c ≠ '-' := by
  rintro rfl; revert h; decide

/-- the first occurrence of a separator is unique -/
theorem first_inj {β : Type} {c : β} : ∀ {a a' b b' : List β}, c ∉ a → c ∉ a' → a ++ c :: b = a' ++ c :: b' → a = a' ∧ b = b'
  | [], [], b, b', _, _, h => by simpa using h
  | [], x :: a', b, b', _, h2, h => by
    simp only [List.nil_append, List.cons_append, List.cons.injEq] at h
    exact absurd (by rw [h.1]; simp) h2
  | x :: a, [], b, b', h1, _, h => by
    simp only [List.nil_append, List.cons_append, List.cons.injEq] at h
    exact absurd (by rw [← h.1]; simp) h1
  | x :: a, y :: a', b, b', h1, h2, h => by
    simp only [List.cons_append, List.cons.injEq] at h
    obtain ⟨e1, e2⟩ := first_inj (fun hc => h1 (List.mem_cons_of_mem _ hc)) (fun hc => h2 (List.mem_cons_of_mem _ hc)) h.2
    exact ⟨by rw [h.1, e1], e2⟩

/-- the last occurrence of a separator is unique -/
theorem last_inj {β : Type} {c : β} {a a' b b' : List β} (h1 : c ∉ b) (h2 : c ∉ b') (h : a ++ c :: b = a' ++ c :: b') :
    a = a' ∧ b = b' := by
  have hr := congrArg List.reverse h
  simp only [List.reverse_append, List.reverse_cons, List.append_assoc, List.singleton_append] at hr
  obtain ⟨e1, e2⟩ := first_inj (by simpa using h1) (by simpa using h2) hr
  exact ⟨List.reverse_inj.mp e2, List.reverse_inj.mp e1⟩

/-- digits and hash -/
structure NumHex (n h : Str) : Prop where
  n_ne : n ≠ []
  n_digit : n.all Char.isDigit = true
  h_ne : h ≠ []
  h_hex : h.all isHex = true

theorem NumHex.n_dash {n h : Str} (x : NumHex n h) : '-' ∉ n := fun hc =>
  isDigit_ne (List.all_eq_true.mp x.n_digit _ hc) rfl

theorem NumHex.h_dash {n h : Str} (x : NumHex n h) : '-' ∉ h := fun hc =>
  isHex_ne (List.all_eq_true.mp x.h_hex _ hc) rfl

theorem reTail_sound {t n h : Str} (hr : reTail t = some (n, h)) : t = '-' :: (n ++ '-' :: 'g' :: h) ∧ NumHex n h := by
  unfold reTail at hr
  split at hr
  · next t =>
    obtain ⟨j, hj, hv⟩ := List.exists_of_findSome?_eq_some hr
    have hjl : j < t.length := by simpa using hj
    split at hv
    · next hd =>
      split at hv
      · next h' hdrop =>
        split at hv
        · next hh =>
          simp only [Option.some.injEq, Prod.mk.injEq] at hv
          obtain ⟨rfl, rfl⟩ := hv
          refine ⟨?_, ?_, hd, hh.1, hh.2⟩
          · rw [← hdrop, List.take_append_drop]
          · intro he
            have := congrArg List.length he
            simp at this
            rw [this] at hjl
            simp at hjl
        · cases hv
      · cases hv
    · cases hv
  · cases hr

theorem reTail_complete {n h : Str} (x : NumHex n h) : reTail ('-' :: (n ++ '-' :: 'g' :: h)) = some (n, h) := by
  cases hr : reTail ('-' :: (n ++ '-' :: 'g' :: h)) with
  | some r =>
    obtain ⟨n', h'⟩ := r
    obtain ⟨e, x'⟩ := reTail_sound hr
    simp only [List.cons.injEq, true_and] at e
    obtain ⟨e1, e2⟩ := first_inj x.n_dash x'.n_dash e
    simp only [List.cons.injEq, true_and] at e2
    rw [e1, e2]
  | none =>
    exfalso
    unfold reTail at hr
    simp only [List.findSome?_eq_none_iff] at hr
    have hpos : 0 < n.length := List.length_pos_iff.mpr x.n_ne
    have := hr (n.length - 1) (by simp; omega)
    rw [Nat.sub_add_cancel hpos, List.take_left, List.drop_left, if_pos x.n_digit] at this
    simp [x.h_ne, x.h_hex] at this

theorem reDescribe_sound {s tag n h : Str} (hr : reDescribe s = some (tag, n, h)) :
    s = tag ++ '-' :: (n ++ '-' :: 'g' :: h) ∧ tag ≠ [] ∧ (∀ c ∈ tag, c ≠ '\n') ∧ NumHex n h := by
  unfold reDescribe at hr
  obtain ⟨i, hi, hv⟩ := List.exists_of_findSome?_eq_some hr
  have hil : i < s.length := by simpa using hi
  split at hv
  · next hnl =>
    split at hv
    · next n' h' ht =>
      simp only [Option.some.injEq, Prod.mk.injEq] at hv
      obtain ⟨rfl, rfl, rfl⟩ := hv
      obtain ⟨e, x⟩ := reTail_sound ht
      refine ⟨by rw [← e, List.take_append_drop], ?_, ?_, x⟩
      · intro he
        have := congrArg List.length he
        simp at this
        rw [this] at hil
        simp at hil
      · intro c hc
        have := List.all_eq_true.mp hnl c hc
        simpa using this
    · cases hv
  · cases hv

theorem reDescribe_complete {tag n h : Str} (ht : tag ≠ []) (hnl : ∀ c ∈ tag, c ≠ '\n') (x : NumHex n h) :
    reDescribe (tag ++ '-' :: (n ++ '-' :: 'g' :: h)) = some (tag, n, h) := by
  cases hr : reDescribe (tag ++ '-' :: (n ++ '-' :: 'g' :: h)) with
  | some r =>
    obtain ⟨tag', n', h'⟩ := r
    obtain ⟨e, _, _, x'⟩ := reDescribe_sound hr
    have gd : ∀ {h : Str}, '-' ∉ h → '-' ∉ 'g' :: h := by
      intro h hh hc
      rcases List.mem_cons.mp hc with h1 | h1
      · exact absurd h1 (by decide)
      · exact hh h1
    have e' : (tag ++ '-' :: n) ++ '-' :: 'g' :: h = (tag' ++ '-' :: n') ++ '-' :: 'g' :: h' := by simpa using e
    obtain ⟨e1, e2⟩ := last_inj (gd x.h_dash) (gd x'.h_dash) e'
    obtain ⟨e3, e4⟩ := last_inj x.n_dash x'.n_dash e1
    simp only [List.cons.injEq, true_and] at e2
    rw [e3, e4, e2]
  | none =>
    exfalso
    unfold reDescribe at hr
    simp only [List.findSome?_eq_none_iff] at hr
    have hpos : 0 < tag.length := List.length_pos_iff.mpr ht
    have := hr (tag.length - 1) (by simp; omega)
    rw [Nat.sub_add_cancel hpos, List.take_left, List.drop_left, reTail_complete x,
      if_pos (List.all_eq_true.mpr fun c hc => by simpa using hnl c hc)] at this
    simp at this

/-! ## Stripping -/

theorem solid_isSpace {s : Str} (h : Solid s) : ∀ c ∈ s, isSpace c = false := by
  intro c hc
  have := h c hc
  have e : " \t\n\r\x0b\x0c".toList = [' ', '\t', '\n', '\r', '\x0b', '\x0c'] := by decide
  rw [e] at this
  simp only [List.mem_cons, List.not_mem_nil, or_false, not_or] at this
  simp [isSpace, this]

theorem dropWhile_none {p : Char → Bool} : ∀ {s : Str}, (∀ c ∈ s, p c = false) → s.dropWhile p = s
  | [], _ => rfl
  | c :: s, h => by rw [List.dropWhile_cons, h c (by simp)]; simp

theorem strip_solid {s : Str} (h : Solid s) : strip s = s := by
  have h1 := solid_isSpace h
  unfold strip stripBy
  rw [dropWhile_none h1, dropWhile_none (fun c hc => h1 c (by simpa using hc)), List.reverse_reverse]

theorem strip_line {s : Str} (h : Solid s) : strip (s ++ ['\n']) = s := by
  have h1 := solid_isSpace h
  unfold strip stripBy
  cases s with
  | nil => decide
  | cons c s =>
    have : (c :: s ++ ['\n']).dropWhile isSpace = c :: s ++ ['\n'] := by
      rw [List.cons_append, List.dropWhile_cons, h1 c (by simp)]; simp
    rw [this, List.reverse_append, List.reverse_singleton, List.singleton_append, List.dropWhile_cons,
      show isSpace '\n' = true by decide]
    simp only [if_true]
    rw [dropWhile_none (fun c' hc => h1 c' (List.mem_reverse.mp hc)), List.reverse_reverse]

theorem hash_solid {h : Str} (hh : IsHash h) : Solid h := by
  intro c hc hs
  have e : " \t\n\r\x0b\x0c".toList = [' ', '\t', '\n', '\r', '\x0b', '\x0c'] := by decide
  have hx := List.all_eq_true.mp (hash_isHex hh) c hc
  rw [e] at hs
  simp only [List.mem_cons, List.not_mem_nil, or_false] at hs
  rcases hs with rfl | rfl | rfl | rfl | rfl | rfl <;> revert hx <;> decide

theorem digit_solid {s : Str} (hh : s.all Char.isDigit = true) : Solid s := by
  intro c hc hs
  have e : " \t\n\r\x0b\x0c".toList = [' ', '\t', '\n', '\r', '\x0b', '\x0c'] := by decide
  have hx := List.all_eq_true.mp hh c hc
  rw [e] at hs
  simp only [List.mem_cons, List.not_mem_nil, or_false] at hs
  rcases hs with rfl | rfl | rfl | rfl | rfl | rfl <;> revert hx <;> decide

theorem Solid.append {s t : Str} (h1 : Solid s) (h2 : Solid t) : Solid (s ++ t) := by
  intro c hc
  rcases List.mem_append.mp hc with h | h
  · exact h1 c h
  · exact h2 c h

theorem solid_lits : Solid "-".toList ∧ Solid "-g".toList ∧ Solid "-dirty".toList ∧ Solid [] := by
  refine ⟨?_, ?_, ?_, ?_⟩ <;> (unfold Solid; decide)

theorem dirtySuffix_solid (d : Bool) : Solid (dirtySuffix d) := by
  cases d
  · exact solid_lits.2.2.2
  · exact solid_lits.2.2.1

theorem prints_run {p : List Proc} {s : Str} (h : Prints p s) (hs : Solid s) : runCommand p = (some s, some 0) := by
  obtain ⟨k, rest, rfl⟩ := h
  induction k with
  | zero => simp [runCommand, strip_line hs]
  | succ k ih => rw [List.replicate_succ, List.cons_append]; exact ih

theorem isSpace_iff {c : Char} : isSpace c = true ↔ c ∈ " \t\n\r\x0b\x0c".toList := by
  have e : " \t\n\r\x0b\x0c".toList = [' ', '\t', '\n', '\r', '\x0b', '\x0c'] := by decide
  rw [e]
  simp [isSpace, or_assoc]

theorem padded_strip (s : Str) : Padded s (strip s) := by
  have takeW : ∀ (l : Str) (c : Char), c ∈ l.takeWhile isSpace → isSpace c = true := fun l c h =>
    List.all_eq_true.mp (List.all_takeWhile (p := isSpace) (l := l)) c h
  refine ⟨s.takeWhile isSpace, ((s.dropWhile isSpace).reverse.takeWhile isSpace).reverse, ?_, ?_⟩
  · have h1 := List.takeWhile_append_dropWhile (p := isSpace) (l := s)
    have h2 := List.takeWhile_append_dropWhile (p := isSpace) (l := (s.dropWhile isSpace).reverse)
    have h3 := congrArg List.reverse h2
    rw [List.reverse_append, List.reverse_reverse] at h3
    unfold strip stripBy
    rw [List.append_assoc, h3, h1]
  · intro c hc
    rw [← isSpace_iff]
    rcases List.mem_append.mp hc with h | h
    · exact takeW _ _ h
    · exact takeW _ _ (List.mem_reverse.mp h)

theorem dropWhile_head' {p : Char → Bool} {s : Str} (h : ∀ c ∈ s, p c = false) : s.dropWhile p = s := by
  cases s with
  | nil => rfl
  | cons c s => rw [List.dropWhile_cons, h c (by simp)]; simp

theorem strip_padded {raw t : Str} (h : Padded raw t) (ht : Solid t) : strip raw = t := by
  obtain ⟨w, w', rfl, hw⟩ := h
  have h1 : ∀ c ∈ w, isSpace c = true := fun c hc => isSpace_iff.mpr (hw c (by simp [hc]))
  have h2 : ∀ c ∈ w', isSpace c = true := fun c hc => isSpace_iff.mpr (hw c (by simp [hc]))
  have hs := solid_isSpace ht
  have drop : ∀ (a b : Str), (∀ c ∈ a, isSpace c = true) → (a ++ b).dropWhile isSpace = b.dropWhile isSpace := by
    intro a b ha
    induction a with
    | nil => rfl
    | cons c a ih => rw [List.cons_append, List.dropWhile_cons, ha c (by simp)]; simpa using ih fun c hc => ha c (by simp [hc])
  unfold strip stripBy
  rw [List.append_assoc, drop _ _ h1]
  cases t with
  | nil =>
    have := drop w' [] h2
    simp only [List.append_nil, List.dropWhile_nil] at this
    simp [this]
  | cons a t =>
    have e : (a :: t ++ w').dropWhile isSpace = a :: t ++ w' := by
      rw [List.cons_append, List.dropWhile_cons, hs a (by simp)]; simp
    rw [e, List.reverse_append, drop _ _ (fun c hc => h2 c (List.mem_reverse.mp hc))]
    have : (a :: t).reverse.dropWhile isSpace = (a :: t).reverse := by
      have := dropWhile_head' (p := isSpace) (s := (a :: t).reverse) (fun c hc => hs c (List.mem_reverse.mp hc))
      exact this
    rw [this, List.reverse_reverse]

theorem answers_run {p : List Proc} {s : Str} (h : Answers p s) : runCommand p = (some (strip s), some 0) := by
  obtain ⟨k, rest, rfl⟩ := h
  induction k with
  | zero => simp [runCommand]
  | succ k ih => rw [List.replicate_succ, List.cons_append]; exact ih

theorem Fails.run {p : List Proc} (h : Fails p) : (runCommand p).1 = none ∧ (runCommand p).2 ≠ some 0 := by
  obtain ⟨k, h⟩ := h
  induction k generalizing p with
  | zero =>
    rcases h with rfl | ⟨rest, rfl | ⟨t, rc, hrc, rfl⟩⟩
    · simp [runCommand]
    · simp [runCommand]
    · simp [runCommand, hrc]
  | succ k ih =>
    rcases h with rfl | ⟨rest, rfl | ⟨t, rc, hrc, rfl⟩⟩
    · have := ih (p := List.replicate k .enoent) (Or.inl rfl)
      exact this
    · have := ih (p := List.replicate k .enoent ++ .osError :: rest) (Or.inr ⟨rest, Or.inl rfl⟩)
      exact this
    · have := ih (p := List.replicate k .enoent ++ .ran t rc :: rest) (Or.inr ⟨rest, Or.inr ⟨t, rc, hrc, rfl⟩⟩)
      exact this

theorem fails_or_answers : ∀ p : List Proc, Fails p ∨ ∃ s, Answers p s
  | [] => Or.inl ⟨0, Or.inl rfl⟩
  | .enoent :: p => by
    rcases fails_or_answers p with ⟨k, h⟩ | ⟨s, k, rest, h⟩
    · left
      refine ⟨k + 1, ?_⟩
      rcases h with h | ⟨rest, h | ⟨t, rc, hrc, h⟩⟩
      · exact Or.inl (by rw [h]; rfl)
      · exact Or.inr ⟨rest, Or.inl (by rw [h]; rfl)⟩
      · exact Or.inr ⟨rest, Or.inr ⟨t, rc, hrc, by rw [h]; rfl⟩⟩
    · exact Or.inr ⟨s, k + 1, rest, by rw [h]; rfl⟩
  | .osError :: p => Or.inl ⟨0, Or.inr ⟨p, Or.inl rfl⟩⟩
  | .ran t rc :: p => by
    by_cases h : rc = 0
    · subst h; exact Or.inr ⟨t, 0, p, rfl⟩
    · exact Or.inl ⟨0, Or.inr ⟨p, Or.inr ⟨t, rc, h, rfl⟩⟩⟩

theorem fails_iff {p : List Proc} : (runCommand p).1 = none ↔ Fails p := by
  refine ⟨fun h => ?_, fun h => h.run.1⟩
  rcases fails_or_answers p with hf | ⟨s, hs⟩
  · exact hf
  · rw [answers_run hs] at h; cases h

theorem fails_iff' {p : List Proc} : (runCommand p).2 ≠ some 0 ↔ Fails p := by
  refine ⟨fun h => ?_, fun h => h.run.2⟩
  rcases fails_or_answers p with hf | ⟨s, hs⟩
  · exact hf
  · rw [answers_run hs] at h; exact absurd rfl h

theorem answers_of_run {p : List Proc} {t : Str} (h : (runCommand p).1 = some t) : ∃ s, Answers p s ∧ strip s = t := by
  rcases fails_or_answers p with hf | ⟨s, hs⟩
  · rw [hf.run.1] at h; cases h
  · rw [answers_run hs] at h; exact ⟨s, hs, Option.some.inj h⟩

theorem digit_mem {c : Char} (h : c.isDigit = true) : c ∈ "0123456789".toList := by
  have e : "0123456789".toList = ['0','1','2','3','4','5','6','7','8','9'] := by decide
  rw [e]
  simp only [Char.isDigit, Bool.and_eq_true, decide_eq_true_eq] at h
  have h1 : 48 ≤ c.toNat := h.1
  have h2 : c.toNat ≤ 57 := h.2
  have : ∀ n, 48 ≤ n → n ≤ 57 → Char.ofNat n ∈ ['0','1','2','3','4','5','6','7','8','9'] := by
    intro n a b; interval_cases n <;> decide
  have := this _ h1 h2
  rwa [Char.ofNat_toNat] at this

theorem mem_digit {c : Char} (h : c ∈ "0123456789".toList) : c.isDigit = true := by
  have e : "0123456789".toList = ['0','1','2','3','4','5','6','7','8','9'] := by decide
  rw [e] at h
  fin_cases h <;> rfl

/-- white space does not begin or end a stripped text -/
theorem strip_strip (s : Str) : strip (strip s) = strip s := by
  unfold strip stripBy
  have idem : ∀ l : Str, (l.dropWhile isSpace).dropWhile isSpace = l.dropWhile isSpace := by
    intro l
    induction l with
    | nil => rfl
    | cons c l ih =>
      by_cases h : isSpace c
      · rw [List.dropWhile_cons, if_pos h, ih]
      · rw [List.dropWhile_cons, if_neg h, List.dropWhile_cons, if_neg h]
  have front : ∀ a b : Str, a <+: b → b.dropWhile isSpace = b → a.dropWhile isSpace = a := by
    rintro a b ⟨t, rfl⟩ hb
    cases a with
    | nil => rfl
    | cons c a =>
      rw [List.cons_append, List.dropWhile_cons] at hb
      split at hb
      · exfalso
        have := congrArg List.length hb
        have := (List.dropWhile_sublist isSpace (l := a ++ t)).length_le
        simp only [List.length_cons] at *
        omega
      · next h => rw [List.dropWhile_cons, if_neg h]
  have e : (((s.dropWhile isSpace).reverse.dropWhile isSpace).reverse).dropWhile isSpace =
      ((s.dropWhile isSpace).reverse.dropWhile isSpace).reverse := by
    refine front _ (s.dropWhile isSpace) ?_ (idem s)
    rw [← List.reverse_suffix, List.reverse_reverse]
    exact List.dropWhile_suffix isSpace
  rw [e, List.reverse_reverse, idem]

/-! ## Dates -/

theorem dropWhile_head {p : Char → Bool} {s t : Str} (hs : s ≠ []) (h : ∀ c ∈ s, p c = false) :
    (s ++ t).dropWhile p = s ++ t := by
  cases s with
  | nil => exact absurd rfl hs
  | cons c s => rw [List.cons_append, List.dropWhile_cons, h c (by simp)]; simp

/-- text that starts and ends with something solid is not stripped -/
theorem strip_ends {a m z : Str} (ha : a ≠ []) (hz : z ≠ []) (sa : Solid a) (sz : Solid z) :
    strip (a ++ m ++ z) = a ++ m ++ z ∧ strip (a ++ m ++ z ++ ['\n']) = a ++ m ++ z := by
  have h1 := solid_isSpace sa
  have h2 := solid_isSpace sz
  have hr : ((a ++ m ++ z).reverse).dropWhile isSpace = (a ++ m ++ z).reverse := by
    rw [List.reverse_append]
    exact dropWhile_head (by simpa using hz) (fun c hc => h2 c (List.mem_reverse.mp hc))
  constructor
  · unfold strip stripBy
    have : (a ++ m ++ z).dropWhile isSpace = a ++ m ++ z := by
      rw [List.append_assoc]; exact dropWhile_head ha h1
    rw [this, hr, List.reverse_reverse]
  · unfold strip stripBy
    have : (a ++ m ++ z ++ ['\n']).dropWhile isSpace = a ++ m ++ z ++ ['\n'] := by
      rw [List.append_assoc, List.append_assoc]; exact dropWhile_head ha h1
    rw [this, List.reverse_append, List.reverse_singleton, List.singleton_append, List.dropWhile_cons,
      show isSpace '\n' = true by decide]
    simp only [if_true]
    rw [hr, List.reverse_reverse]

theorem replaceSpace_solid {r : Str} : ∀ {a m : Str}, Solid a → replaceSpace r (a ++ ' ' :: m) = a ++ r ++ m
  | [], m, _ => by simp [replaceSpace]
  | c :: a, m, h => by
    have hc : c ≠ ' ' := by rintro rfl; exact h ' ' (by simp) (by decide)
    rw [List.cons_append, replaceSpace, if_neg hc, replaceSpace_solid (fun c hc => h c (by simp [hc]))]
    simp

theorem fixDate_iso {d t z : Str} (hd : d ≠ []) (hz : z ≠ []) (sd : Solid d) (st : Solid t) (sz : Solid z) :
    fixDate (gitDate d t z) = isoDate d t z := by
  have hsp : " ".toList = [' '] := by decide
  have e : gitDate d t z = d ++ (' ' :: (t ++ [' '])) ++ z := by simp [gitDate, hsp]
  unfold fixDate
  rw [e, (strip_ends hd hz sd sz).1, List.append_assoc]
  simp only [List.cons_append, List.append_assoc, List.singleton_append, List.nil_append]
  rw [replaceSpace_solid sd, show d ++ lit "T" ++ (t ++ ' ' :: z) = (d ++ lit "T" ++ t) ++ ' ' :: z by simp,
    replaceSpace_solid ((sd.append (by unfold Solid lit; decide)).append st)]
  simp [isoDate, lit]

theorem prints_date {p : List Proc} {d t z : Str} (h : Prints p (gitDate d t z)) (hd : d ≠ []) (hz : z ≠ []) (sd : Solid d)
    (sz : Solid z) : runCommand p = (some (gitDate d t z), some 0) := by
  have e : gitDate d t z = d ++ (" ".toList ++ t ++ " ".toList) ++ z := by simp [gitDate]
  obtain ⟨k, rest, rfl⟩ := h
  induction k with
  | zero =>
    simp only [List.replicate_zero, List.nil_append, runCommand]
    rw [e, (strip_ends hd hz sd sz).2]
    simp
  | succ k ih => rw [List.replicate_succ, List.cons_append]; exact ih

/-! ## The `-dirty` suffix -/

theorem dirty_detect {s : Str} (hs : ∀ t, s ≠ t ++ "-dirty".toList) (d : Bool) :
    (lit "-dirty").isSuffixOf (s ++ dirtySuffix d) = d ∧
    (if (lit "-dirty").isSuffixOf (s ++ dirtySuffix d) = true then
      (s ++ dirtySuffix d).take ((s ++ dirtySuffix d).length - 6) else s ++ dirtySuffix d) = s := by
  have e : (lit "-dirty").isSuffixOf (s ++ dirtySuffix d) = d := by
    cases d with
    | true => rw [List.isSuffixOf_iff_suffix]; exact ⟨s, rfl⟩
    | false =>
      rw [← Bool.not_eq_true, List.isSuffixOf_iff_suffix]
      rintro ⟨t, ht⟩
      simp only [dirtySuffix, Bool.false_eq_true, if_false, List.append_nil] at ht
      exact hs t ht.symm
  refine ⟨e, ?_⟩
  rw [e]
  cases d with
  | true =>
    have hl : (dirtySuffix true).length = 6 := by decide
    simp only [if_true, List.length_append, hl, Nat.add_sub_cancel, List.take_left]
  | false => simp [dirtySuffix]

theorem dirty_split (s : Str) : s = (if (lit "-dirty").isSuffixOf s = true then s.take (s.length - 6) else s) ++
    dirtySuffix ((lit "-dirty").isSuffixOf s) := by
  by_cases h : (lit "-dirty").isSuffixOf s = true
  · obtain ⟨t, ht⟩ := List.isSuffixOf_iff_suffix.mp h
    have hl : (lit "-dirty").length = 6 := by decide
    rw [h, if_pos rfl, ← ht, List.length_append, hl, Nat.add_sub_cancel, List.take_left]
    rfl
  · rw [if_neg h]
    have h' : (lit "-dirty").isSuffixOf s = false := Bool.eq_false_iff.mpr h
    rw [h']
    simp [dirtySuffix]

theorem isHex_mem {c : Char} (h : isHex c = true) :
    c ∈ ['0','1','2','3','4','5','6','7','8','9','a','b','c','d','e','f'] := by
  unfold isHex Char.isDigit at h
  simp only [Bool.or_eq_true, Bool.and_eq_true, decide_eq_true_eq] at h
  simp only [List.mem_cons, List.not_mem_nil, or_false]
  rcases h with (((((⟨h1, h2⟩ | h) | h) | h) | h) | h) | h
  · have a1 : 48 ≤ c.toNat := h1
    have a2 : c.toNat ≤ 57 := h2
    have key : c = Char.ofNat c.toNat := (Char.ofNat_toNat c).symm
    generalize c.toNat = k at a1 a2 key
    subst key
    interval_cases k <;> simp [Char.ofNat] <;> decide
  all_goals (subst h; decide)

theorem hash_end {s h : Str} (hh : IsHash h) : ∀ t, s ++ h ≠ t ++ "-dirty".toList := by
  intro t ht
  obtain ⟨l, c, rfl⟩ := List.eq_nil_or_concat h |>.resolve_left hh.1
  have e : "-dirty".toList = "-dirt".toList ++ ['y'] := by decide
  rw [e, List.concat_eq_append, ← List.append_assoc, ← List.append_assoc] at ht
  have := (List.append_inj' ht rfl).2
  have hx := List.all_eq_true.mp (hash_isHex hh) c (by simp)
  simp only [List.cons.injEq, and_true] at this
  subst this
  revert hx; decide

end TwoLayer.Version
