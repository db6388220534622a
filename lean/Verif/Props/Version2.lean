import Verif.Props.Version

/-!
# C61–C65: versions tell builds apart, other styles, keywords, fallbacks
-/

set_option linter.unusedSimpArgs false
set_option linter.unusedVariables false

namespace TwoLayer.Version

/-! ## C61: versions tell builds apart -/

theorem digits_no {n : Nat} {c : Char} (hc : c.isDigit = false) : c ∉ digits n := by
  rw [digits_eq]
  intro h
  rw [dec_digit h] at hc
  cases hc

theorem hash_no {h : Str} (hh : IsHash h) {c : Char} (hc : isHex c = false) : c ∉ h := by
  intro hm
  rw [List.all_eq_true.mp (hash_isHex hh) c hm] at hc
  cases hc

/-- `.gHASH[.dirty]` determines its parts -/
theorem local_inj {n n' : Nat} {h h' : Str} {d d' : Bool} (hh : IsHash h) (hh' : IsHash h')
    (e : digits n ++ ".g".toList ++ h ++ (if d then ".dirty".toList else []) =
      digits n' ++ ".g".toList ++ h' ++ (if d' then ".dirty".toList else [])) : n = n' ∧ h = h' ∧ d = d' := by
  have hg : ".g".toList = ['.', 'g'] := by decide
  have hdd : ".dirty".toList = '.' :: "dirty".toList := by decide
  have hdot : ∀ n, '.' ∉ digits n := fun n => digits_no (by decide)
  rw [hg] at e
  simp only [List.append_assoc, List.cons_append, List.nil_append] at e
  obtain ⟨e1, e2⟩ := first_inj (hdot n) (hdot n') e
  have e1' : n = n' := dec_inj (by rw [← digits_eq, ← digits_eq, e1])
  simp only [List.cons.injEq, true_and] at e2
  have hn : '.' ∉ h := hash_no hh (by decide)
  have hn' : '.' ∉ h' := hash_no hh' (by decide)
  rw [hdd] at e2
  refine ⟨e1', ?_⟩
  cases d <;> cases d' <;> simp only [Bool.false_eq_true, if_false, if_true, List.append_nil] at e2 ⊢
  · exact ⟨e2, trivial⟩
  · exact absurd (by rw [e2]; simp) hn
  · exact absurd (by rw [← e2]; simp) hn'
  · exact ⟨(first_inj hn hn' e2).1, trivial⟩

theorem pep440_inj {x : Str} {n n' : Nat} {h h' : Str} {d d' : Bool} (hh : IsHash h) (hh' : IsHash h')
    (e : pep440 x n h d = pep440 x n' h' d') : n = n' ∧ d = d' ∧ (h = h' ∨ (n = 0 ∧ d = false)) := by
  unfold pep440 at e
  have key : ∀ {n : Nat} {h : Str} {d : Bool}, x ≠
      x ++ (if '+' ∈ x then ".".toList else "+".toList) ++ digits n ++ ".g".toList ++ h ++ (if d then ".dirty".toList else []) := by
    intro n h d e
    have := congrArg List.length e
    rw [show ".g".toList = ['.', 'g'] by decide] at this
    simp only [List.length_append, List.length_cons, List.length_nil] at this
    omega
  by_cases c : n = 0 ∧ d = false <;> by_cases c' : n' = 0 ∧ d' = false
  · exact ⟨c.1.trans c'.1.symm, c.2.trans c'.2.symm, Or.inr c⟩
  · rw [if_pos c, if_neg c'] at e; exact absurd e key
  · rw [if_neg c, if_pos c'] at e; exact absurd e.symm key
  · rw [if_neg c, if_neg c'] at e
    simp only [List.append_assoc] at e
    have e := List.append_cancel_left (List.append_cancel_left e)
    obtain ⟨h1, h2, h3⟩ := local_inj (n := n) (n' := n') (h := h) (h' := h') (d := d) (d' := d') hh hh'
      (by simpa only [List.append_assoc] using e)
    exact ⟨h1, h3, Or.inl h2⟩

theorem pep440_plus {x : Str} (hx : '+' ∉ x) (n : Nat) (h : Str) (d : Bool) : ∃ r, pep440 x n h d = x ++ r ∧
    (r = [] ∨ ∃ r', r = '+' :: r') := by
  unfold pep440
  by_cases c : n = 0 ∧ d = false
  · rw [if_pos c]; exact ⟨[], by simp, Or.inl rfl⟩
  · rw [if_neg c, if_neg hx, show "+".toList = ['+'] by decide]
    exact ⟨'+' :: (digits n ++ ".g".toList ++ h ++ (if d then ".dirty".toList else [])),
      by simp only [List.append_assoc, List.cons_append, List.nil_append], Or.inr ⟨_, rfl⟩⟩

theorem pep440_inj_tag {x x' : Str} {n n' : Nat} {h h' : Str} {d d' : Bool} (hx : '+' ∉ x) (hx' : '+' ∉ x')
    (e : pep440 x n h d = pep440 x' n' h' d') : x = x' := by
  obtain ⟨r, e1, h1⟩ := pep440_plus hx n h d
  obtain ⟨r', e2, h2⟩ := pep440_plus hx' n' h' d'
  rw [e1, e2] at e
  rcases h1 with rfl | ⟨s, rfl⟩ <;> rcases h2 with rfl | ⟨s', rfl⟩
  · simpa using e
  · rw [List.append_nil] at e; exact absurd (by rw [e]; simp) hx
  · rw [List.append_nil] at e; exact absurd (by rw [← e]; simp) hx'
  · exact (first_inj hx hx' e).1

/-- **C61.** Two checkouts described from tags without `+` have the same version only if the tag, the number of commits since
and dirtiness agree, and the abbreviated hash too unless both are clean checkouts of the tag itself. -/
theorem C61_versions_distinct (x x' h h' full full' day day' time time' zone zone' : Str) (n n' : Nat) (d d' : Bool)
    (g g' : Git) (file file' : List Str) (v : Str)
    (C : Checkout g full day time zone) (C' : Checkout g' full' day' time' zone')
    (hx : x ≠ []) (hx' : x' ≠ []) (hs : Solid x) (hs' : Solid x') (hp : '+' ∉ x) (hp' : '+' ∉ x')
    (hh : IsHash h) (hh' : IsHash h')
    (hdesc : Prints g.describe (describeTagged ("v".toList ++ x) n h d))
    (hdesc' : Prints g'.describe (describeTagged ("v".toList ++ x') n' h' d'))
    (hv : (getVersions Keywords.unexpanded (some file) g).map Info.version = .ok v)
    (hv' : (getVersions Keywords.unexpanded (some file') g').map Info.version = .ok v) :
    x = x' ∧ n = n' ∧ d = d' ∧ (h = h' ∨ (n = 0 ∧ d = false)) := by
  rw [C58_tagged x h full day time zone n d g file C hx hs hh hdesc] at hv
  rw [C58_tagged x' h' full' day' time' zone' n' d' g' file' C' hx' hs' hh' hdesc'] at hv'
  simp only [Except.map, Except.ok.injEq] at hv hv'
  have e := hv.trans hv'.symm
  have ex := pep440_inj_tag hp hp' e
  subst ex
  exact ⟨rfl, pep440_inj hh hh' e⟩

/-- **C61.** The same for builds after one and the same tag, which may contain `+`. -/
theorem C61_same_tag (x h h' full full' day day' time time' zone zone' : Str) (n n' : Nat) (d d' : Bool)
    (g g' : Git) (file file' : List Str) (v : Str)
    (C : Checkout g full day time zone) (C' : Checkout g' full' day' time' zone')
    (hx : x ≠ []) (hs : Solid x) (hh : IsHash h) (hh' : IsHash h')
    (hdesc : Prints g.describe (describeTagged ("v".toList ++ x) n h d))
    (hdesc' : Prints g'.describe (describeTagged ("v".toList ++ x) n' h' d'))
    (hv : (getVersions Keywords.unexpanded (some file) g).map Info.version = .ok v)
    (hv' : (getVersions Keywords.unexpanded (some file') g').map Info.version = .ok v) :
    n = n' ∧ d = d' ∧ (h = h' ∨ (n = 0 ∧ d = false)) := by
  rw [C58_tagged x h full day time zone n d g file C hx hs hh hdesc] at hv
  rw [C58_tagged x h' full' day' time' zone' n' d' g' file' C' hx hs hh' hdesc'] at hv'
  simp only [Except.map, Except.ok.injEq] at hv hv'
  exact pep440_inj hh hh' (hv.trans hv'.symm)

/-! ## C62: the other styles -/

/-- **C62.** The style `git-describe-long` reproduces, without the tag prefix, exactly what `git describe --long` printed. -/
theorem C62_describe_long (x h full day time zone : Str) (n : Nat) (d : Bool) (g : Git)
    (C : Checkout g full day time zone) (hx : x ≠ []) (hs : Solid x) (hh : IsHash h)
    (hdesc : Prints g.describe (describeTagged ("v".toList ++ x) n h d)) :
    ∃ p i, gitPieces "v".toList g = .ok p ∧ render p "git-describe-long" = .ok i ∧
      describeTagged ("v".toList ++ x) n h d = "v".toList ++ i.version := by
  have hp := C59_tagged "v".toList x h full day time zone n d g C (by simp)
    (Solid.append (by unfold Solid; decide) hs) hh hdesc
  refine ⟨_, _, hp, rfl, ?_⟩
  unfold renderGitDescribeLong describeTagged
  have ht : (⟨full, h, none, d, some x, n, isoDate day time zone⟩ : Pieces).tag = some x := by simp [Pieces.tag, hx]
  rw [ht]
  simp only [dirtySuffix, lit, digits_eq, List.append_assoc]

/-- **C62.** The style `git-describe` gives what `git describe` prints without `--long`. -/
theorem C62_describe (x h full day time zone : Str) (n : Nat) (d : Bool) (g : Git)
    (C : Checkout g full day time zone) (hx : x ≠ []) (hs : Solid x) (hh : IsHash h)
    (hdesc : Prints g.describe (describeTagged ("v".toList ++ x) n h d)) :
    ∃ p i, gitPieces "v".toList g = .ok p ∧ render p "git-describe" = .ok i ∧
      describeShort ("v".toList ++ x) n h d = "v".toList ++ i.version := by
  have hp := C59_tagged "v".toList x h full day time zone n d g C (by simp)
    (Solid.append (by unfold Solid; decide) hs) hh hdesc
  refine ⟨_, _, hp, rfl, ?_⟩
  unfold renderGitDescribe describeShort describeTagged
  have ht : (⟨full, h, none, d, some x, n, isoDate day time zone⟩ : Pieces).tag = some x := by simp [Pieces.tag, hx]
  rw [ht]
  by_cases hn : n = 0
  · simp only [hn, if_true, ne_eq, not_true, if_false, dirtySuffix, lit, List.append_assoc]
  · simp only [hn, if_false, ne_eq, not_false_eq_true, if_true, dirtySuffix, lit, digits_eq, List.append_assoc]

theorem renderPre_eq {p : Pieces} {x : Str} (ht : p.tag = some x) : renderPep440Pre p = pep440Pre x p.distance := by
  unfold renderPep440Pre pep440Pre
  rw [ht, digits_eq]
  show (if p.distance ≠ 0 then x ++ lit ".post.dev" ++ dec p.distance else x) = _
  by_cases hn : p.distance = 0
  · rw [if_neg (fun h => h hn), if_pos hn]
  · rw [if_pos hn, if_neg hn]; rfl

theorem not_clean {n : Nat} {d : Bool} : (n ≠ 0 ∨ d = true) ↔ ¬ (n = 0 ∧ d = false) := by
  cases d <;> simp

theorem renderPost_eq {p : Pieces} {x : Str} (ht : p.tag = some x) (hc : p.closestTag = some x) :
    renderPep440Post p = pep440Post x p.distance p.short p.dirty := by
  unfold renderPep440Post pep440Post plusOrDot
  rw [ht, hc, digits_eq]
  simp only [not_clean, Option.getD_some, lit, ite_not]

theorem renderOld_eq {p : Pieces} {x : Str} (ht : p.tag = some x) : renderPep440Old p = pep440Old x p.distance p.dirty := by
  unfold renderPep440Old pep440Old
  rw [ht, digits_eq]
  simp only [not_clean, lit, ite_not]

theorem renderPep440_eq {p : Pieces} {x : Str} (ht : p.tag = some x) (hc : p.closestTag = some x) :
    renderPep440 p = pep440 x p.distance p.short p.dirty := by
  unfold renderPep440 pep440 plusOrDot
  rw [ht, hc, digits_eq]
  simp only [not_clean, Option.getD_some, lit, ite_not, List.append_assoc]

/-- **C62.** The other PEP 440 styles of a build after tag `vX`. -/
theorem C62_pep440_styles (x h full day time zone : Str) (n : Nat) (d : Bool) (g : Git)
    (C : Checkout g full day time zone) (hx : x ≠ []) (hs : Solid x) (hh : IsHash h)
    (hdesc : Prints g.describe (describeTagged ("v".toList ++ x) n h d)) :
    ∃ p, gitPieces "v".toList g = .ok p ∧
      (render p "pep440-pre").map Info.version = .ok (pep440Pre x n) ∧
      (render p "pep440-post").map Info.version = .ok (pep440Post x n h d) ∧
      (render p "pep440-old").map Info.version = .ok (pep440Old x n d) ∧
      (∀ style ∈ ["", "default", "pep440"], (render p style).map Info.version = .ok (pep440 x n h d)) := by
  have hp := C59_tagged "v".toList x h full day time zone n d g C (by simp)
    (Solid.append (by unfold Solid; decide) hs) hh hdesc
  have ht : (⟨full, h, none, d, some x, n, isoDate day time zone⟩ : Pieces).tag = some x := by simp [Pieces.tag, hx]
  refine ⟨_, hp, congrArg Except.ok (renderPre_eq ht), congrArg Except.ok (renderPost_eq ht rfl),
    congrArg Except.ok (renderOld_eq ht), ?_⟩
  intro style hst
  simp only [List.mem_cons, List.not_mem_nil, or_false] at hst
  rcases hst with rfl | rfl | rfl <;> exact congrArg Except.ok (renderPep440_eq ht rfl)

/-- **C62.** The styles of a build without a tag, `n` commits after the first. -/
theorem C62_untagged (h full day time zone : Str) (n : Nat) (d : Bool) (g : Git)
    (C : Checkout g full day time zone) (hh : IsHash h)
    (hdesc : Prints g.describe (describeUntagged h d)) (hcount : Prints g.count (digits n)) :
    ∃ p, gitPieces "v".toList g = .ok p ∧
      (render p "pep440-pre").map Info.version = .ok ("0.post.dev".toList ++ digits n) ∧
      (render p "pep440-post").map Info.version = .ok ("0.post".toList ++ digits n ++ (if d then ".dev0".toList else []) ++
        "+g".toList ++ full.take 7) ∧
      (render p "pep440-old").map Info.version = .ok ("0.post".toList ++ digits n ++ (if d then ".dev0".toList else [])) ∧
      (∀ style ∈ ["git-describe", "git-describe-long"],
        (render p style).map Info.version = .ok (describeUntagged (full.take 7) d)) ∧
      (∀ style ∈ ["", "default", "pep440"], (render p style).map Info.version = .ok (pep440Untagged n (full.take 7) d)) := by
  have hp := C59_untagged "v".toList h full day time zone n d g C hh hdesc hcount
  refine ⟨_, hp, ?_, ?_, ?_, ?_, ?_⟩
  · rw [digits_eq]; rfl
  · rw [digits_eq]; rfl
  · rw [digits_eq]; rfl
  · intro style hst
    simp only [List.mem_cons, List.not_mem_nil, or_false] at hst
    rcases hst with rfl | rfl <;> rfl
  · intro style hst
    simp only [List.mem_cons, List.not_mem_nil, or_false] at hst
    unfold pep440Untagged
    rw [digits_eq]
    rcases hst with rfl | rfl | rfl <;> rfl

/-- **C62.** Rendering fails, with ValueError, exactly for a style that is none of the six (or "" or "default") when the
pieces carry no error; with an error it always reports "unknown". -/
theorem C62_styles (p : Pieces) (style : String) :
    render p style = .error .value ↔ p.error = none ∧ style ∉ ["", "default", "pep440", "pep440-pre", "pep440-post",
      "pep440-old", "git-describe", "git-describe-long"] := by
  unfold render
  cases p.error with
  | some e => simp
  | none =>
    simp only [List.mem_cons, List.not_mem_nil, or_false, true_and]
    by_cases h0 : style = ""
    · subst h0; simp [bind, Except.bind, pure, Except.pure]
    by_cases h1 : style = "default"
    · subst h1; simp [bind, Except.bind, pure, Except.pure]
    have hsty : (if style = "" ∨ style = "default" then "pep440" else style) = style := if_neg (by simp [h0, h1])
    simp only [hsty]
    by_cases h2 : style = "pep440"
    · subst h2; simp [bind, Except.bind, pure, Except.pure]
    by_cases h3 : style = "pep440-pre"
    · subst h3; simp [bind, Except.bind, pure, Except.pure]
    by_cases h4 : style = "pep440-post"
    · subst h4; simp [bind, Except.bind, pure, Except.pure]
    by_cases h5 : style = "pep440-old"
    · subst h5; simp [bind, Except.bind, pure, Except.pure]
    by_cases h6 : style = "git-describe"
    · subst h6; simp [bind, Except.bind, pure, Except.pure]
    by_cases h7 : style = "git-describe-long"
    · subst h7; simp [bind, Except.bind, pure, Except.pure]
    simp [h0, h1, h2, h3, h4, h5, h6, h7, bind, Except.bind, pure, Except.pure]

/-! ## C63: versions from the keywords of a git archive -/

theorem intercalate_comma : ∀ (r : Str) (rs : List Str),
    (", ".toList).intercalate (r :: rs) = [','].intercalate (r :: rs.map (' ' :: ·))
  | r, [] => by simp [List.intercalate]
  | r, r' :: rs => by
    have ih := intercalate_comma r' rs
    have hs : ", ".toList = [',', ' '] := by decide
    rw [hs] at ih ⊢
    simp only [List.intercalate, List.map_cons, List.intersperse_cons_cons, List.flatten_cons] at ih ⊢
    rw [ih]
    cases rs with
    | nil => simp
    | cons a rs => simp

/-- text without white space at its ends -/
def IsRef' (r : Str) : Prop := r ≠ [] ∧
  (∀ c s, r = c :: s → c ∉ " \t\n\r\x0b\x0c".toList) ∧ (∀ s c, r = s ++ [c] → c ∉ " \t\n\r\x0b\x0c".toList)

theorem strip_ref' {r : Str} (h : IsRef' r) : strip r = r ∧ strip (' ' :: r) = r := by
  obtain ⟨hne, hf, hl⟩ := h
  obtain ⟨c, s, rfl⟩ : ∃ c s, r = c :: s := by cases r with
    | nil => exact absurd rfl hne
    | cons c s => exact ⟨c, s, rfl⟩
  obtain ⟨s', c', e⟩ : ∃ s' c', c :: s = s' ++ [c'] := by
    rcases List.eq_nil_or_concat (c :: s) with h | ⟨s', c', h⟩
    · cases h
    · exact ⟨s', c', by rw [h, List.concat_eq_append]⟩
  have h1 : isSpace c = false := by
    have : Solid [c] := by intro x hx; rw [List.mem_singleton.mp hx]; exact hf c s rfl
    exact solid_isSpace this c (by simp)
  have h2 : isSpace c' = false := by
    have : Solid [c'] := by intro x hx; rw [List.mem_singleton.mp hx]; exact hl s' c' e
    exact solid_isSpace this c' (by simp)
  have a : strip (c :: s) = c :: s := by
    unfold strip stripBy
    rw [List.dropWhile_cons, h1]
    simp only [Bool.false_eq_true, if_false]
    rw [e, List.reverse_append, List.reverse_singleton, List.singleton_append, List.dropWhile_cons, h2]
    simp
  refine ⟨a, ?_⟩
  rw [← a]
  unfold strip stripBy
  rw [List.dropWhile_cons, show isSpace ' ' = true by decide]
  simp only [if_true]
  rw [show (((c :: s).dropWhile isSpace).reverse.dropWhile isSpace).reverse = c :: s from a]
  exact a

theorem strip_ref {r : Str} (h : IsRef r) : strip r = r ∧ strip (' ' :: r) = r :=
  strip_ref' ⟨h.1, h.2.2.1, h.2.2.2⟩

theorem intercalate_ends : ∀ (r : Str) (rs : List Str), (∀ x ∈ r :: rs, IsRef x) →
    (∀ c ∈ (", ".toList).intercalate (r :: rs), c ≠ '(' ∧ c ≠ ')') ∧
    (∃ s, (", ".toList).intercalate (r :: rs) = r ++ s) ∧ (", ".toList).intercalate (r :: rs) ≠ []
  | r, [], h => by
    have hr := h r (by simp)
    have hp : ",()".toList = [',', '(', ')'] := by decide
    refine ⟨?_, ⟨[], by simp⟩, by simpa using hr.1⟩
    intro c hc
    have := hr.2.1 c (by simpa using hc)
    rw [hp] at this
    simp only [List.mem_cons, List.not_mem_nil, or_false, not_or] at this
    exact this.2
  | r, r' :: rs, h => by
    have hr := h r (by simp)
    have hp : ",()".toList = [',', '(', ')'] := by decide
    obtain ⟨h1, _, _⟩ := intercalate_ends r' rs (fun x hx => h x (by simp [hx]))
    rw [List.intercalate_cons_cons]
    refine ⟨?_, ⟨_, by rw [List.append_assoc]⟩, by simp [hr.1]⟩
    intro c hc
    rcases List.mem_append.mp hc with hc | hc
    · rcases List.mem_append.mp hc with hc | hc
      · have := hr.2.1 c hc
        rw [hp] at this
        simp only [List.mem_cons, List.not_mem_nil, or_false, not_or] at this
        exact this.2
      · rw [show ", ".toList = [',', ' '] by decide] at hc
        simp only [List.mem_cons, List.not_mem_nil, or_false] at hc
        rcases hc with rfl | rfl <;> decide
    · exact h1 c hc

/-- the separated refs -/
theorem refsOf_gitRefs {refs : List Str} (hne : refs ≠ []) (h : ∀ r ∈ refs, IsRef r) : refsOf (gitRefs refs) = refs ∧
    strip (gitRefs refs) = '(' :: ((", ".toList).intercalate refs ++ [')']) := by
  obtain ⟨r, rs, rfl⟩ : ∃ r rs, refs = r :: rs := by cases refs with
    | nil => exact absurd rfl hne
    | cons r rs => exact ⟨r, rs, rfl⟩
  have hp : ",()".toList = [',', '(', ')'] := by decide
  obtain ⟨hb, _, hbne⟩ := intercalate_ends r rs h
  have hst : strip (gitRefs (r :: rs)) = '(' :: ((", ".toList).intercalate (r :: rs) ++ [')']) := by
    have e : gitRefs (r :: rs) = ' ' :: ('(' :: ((", ".toList).intercalate (r :: rs) ++ [')'])) := by
      unfold gitRefs
      rw [show " (".toList = [' ', '('] by decide, show ")".toList = [')'] by decide]
      simp
    have hr : IsRef' ('(' :: ((", ".toList).intercalate (r :: rs) ++ [')'])) := by
      refine ⟨by simp, ?_, ?_⟩
      · intro c s hc; cases hc; decide
      · intro s c hc
        have hc : ('(' :: (", ".toList).intercalate (r :: rs)) ++ [')'] = s ++ [c] := by simpa using hc
        have := (List.append_inj' hc rfl).2
        simp only [List.cons.injEq, and_true] at this
        subst this; decide
    rw [e]
    exact (strip_ref' hr).2
  refine ⟨?_, hst⟩
  have hin : stripBy (fun c => c = '(' || c = ')') (strip (gitRefs (r :: rs))) = (", ".toList).intercalate (r :: rs) := by
    have hq : ∀ c ∈ (", ".toList).intercalate (r :: rs), (decide (c = '(') || decide (c = ')')) = false := by
      intro c hc
      simp [(hb c hc).1, (hb c hc).2]
    rw [hst]
    unfold stripBy
    rw [List.dropWhile_cons, show (decide ('(' = '(') || decide ('(' = ')')) = true by decide]
    simp only [if_true]
    rw [dropWhile_head hbne hq, List.reverse_append, List.reverse_singleton, List.singleton_append, List.dropWhile_cons,
      show (decide (')' = '(') || decide (')' = ')')) = true by decide]
    simp only [if_true]
    rw [dropWhile_none (fun c hc => hq c (List.mem_reverse.mp hc)), List.reverse_reverse]
  unfold refsOf
  rw [hin, intercalate_comma, List.splitOn_intercalate]
  · rw [List.map_cons, (strip_ref (h r (by simp))).1, List.map_map]
    congr 1
    conv_rhs => rw [← List.map_id rs]
    refine List.map_congr_left fun x hx => ?_
    exact (strip_ref (h x (by simp [hx]))).2
  · intro l hl
    have hcomma : ∀ x ∈ r :: rs, ',' ∉ x := by
      intro x hx hc
      exact (h x hx).2.1 ',' hc (by decide)
    rcases List.mem_cons.mp hl with rfl | hl
    · exact hcomma _ (by simp)
    · obtain ⟨x, hx, rfl⟩ := List.mem_map.mp hl
      intro hc
      rcases List.mem_cons.mp hc with hc | hc
      · revert hc; decide
      · exact hcomma x (by simp [hx]) hc
  · simp

theorem mem_tagsOf {refs : List Str} {t : Str} : t ∈ tagsOf refs ↔ TagCandidate refs t := by
  have htag : ∀ t, t ∈ (refs.filter fun r => (lit "tag: ").isPrefixOf r).map (fun r => r.drop 5) ↔ "tag: ".toList ++ t ∈ refs := by
    intro t
    simp only [List.mem_map, List.mem_filter, List.isPrefixOf_iff_prefix]
    constructor
    · rintro ⟨r, ⟨hr, ⟨s, rfl⟩⟩, rfl⟩
      rw [show (5 : Nat) = (lit "tag: ").length by decide, List.drop_left]
      exact hr
    · intro ht
      refine ⟨_, ⟨ht, List.prefix_append _ _⟩, ?_⟩
      rw [show (5 : Nat) = ("tag: ".toList).length by decide, List.drop_left]
  have hdig : ∀ c : Char, c.isDigit = true ↔ c ∈ "0123456789".toList := by
    intro c
    have e : "0123456789".toList = ['0','1','2','3','4','5','6','7','8','9'] := by decide
    rw [e]
    constructor
    · intro h
      have := isHex_mem (c := c) (by simp [isHex, h])
      simp only [List.mem_cons, List.not_mem_nil, or_false] at this
      rcases this with h'|h'|h'|h'|h'|h'|h'|h'|h'|h'|h'|h'|h'|h'|h'|h' <;> subst h' <;> revert h <;> decide
    · intro h
      simp only [List.mem_cons, List.not_mem_nil, or_false] at h
      rcases h with h'|h'|h'|h'|h'|h'|h'|h'|h'|h' <;> subst h' <;> decide
  unfold tagsOf TagCandidate
  dsimp only
  by_cases he : (refs.filter fun r => (lit "tag: ").isPrefixOf r).map (fun r => r.drop 5) = []
  · rw [if_pos he]
    have hno : ∀ t', "tag: ".toList ++ t' ∉ refs := fun t' ht' => by
      rw [← htag, he] at ht'; cases ht'
    simp only [hno t, false_or, List.mem_filter, List.any_eq_true, hdig]
    exact ⟨fun h => ⟨hno, h⟩, fun h => h.2⟩
  · rw [if_neg he, htag]
    constructor
    · exact Or.inl
    · rintro (h | ⟨h, _⟩)
      · exact h
      · exfalso
        refine he (List.eq_nil_iff_forall_not_mem.mpr fun t' ht' => ?_)
        rw [htag] at ht'
        exact h t' ht'

theorem find_sorted {l : List Str} {p : Str → Bool} {t : Str}
    (h : (l.mergeSort (fun a b => decide (a ≤ b))).find? p = some t) : t ∈ l ∧ p t = true ∧ ∀ t' ∈ l, p t' = true → t ≤ t' := by
  obtain ⟨hp, as, bs, e, has⟩ := List.find?_eq_some_iff_append.mp h
  have hsort := List.pairwise_mergeSort (le := fun a b : Str => decide (a ≤ b))
    (fun a b c h1 h2 => by simp only [decide_eq_true_eq] at *; exact List.le_trans h1 h2)
    (fun a b => by simp only [Bool.or_eq_true, decide_eq_true_eq]; exact List.le_total a b) l
  refine ⟨?_, hp, fun t' ht' hp' => ?_⟩
  · rw [← List.mem_mergeSort (le := fun a b : Str => decide (a ≤ b)), e]; simp
  · rw [← List.mem_mergeSort (le := fun a b : Str => decide (a ≤ b)), e] at ht'
    rw [e] at hsort
    rcases List.mem_append.mp ht' with h1 | h1
    · have := has t' h1
      rw [hp'] at this; cases this
    · rcases List.mem_cons.mp h1 with rfl | h1
      · exact List.le_refl _
      · have := (List.pairwise_cons.mp (List.pairwise_append.mp hsort).2.1).1 t' h1
        simpa using this

/-- **C63.** In an unpacked git archive whose commit carries tags `v…`, whatever git or the directory would say: the version is
the smallest such tag (in code point order) without the `v`; the hash and ISO date of the archived commit are reported, clean. -/
theorem C63_keywords (refs : List Str) (full day time zone : Str) (file : Option (List Str)) (g : Git)
    (hne : refs ≠ []) (h : ∀ r ∈ refs, IsRef r) (hf : IsHash full)
    (hd : day ≠ []) (hz : zone ≠ []) (sd : Solid day) (st : Solid time) (sz : Solid zone)
    (hex : ∃ x, TagCandidate refs ("v".toList ++ x)) :
    ∃ x, TagCandidate refs ("v".toList ++ x) ∧ (∀ x', TagCandidate refs ("v".toList ++ x') → x ≤ x') ∧
      getVersions ⟨gitRefs refs, full, gitDate day time zone⟩ file g = .ok
        { version := x
          fullRevisionid := some full
          dirty := some false
          error := none
          date := some (isoDate day time zone) } := by
  obtain ⟨hr, hst⟩ := refsOf_gitRefs hne h
  cases hfi : ((tagsOf refs).mergeSort (fun a b => decide (a ≤ b))).find? (tagPrefix.isPrefixOf ·) with
  | none =>
    exfalso
    obtain ⟨x, hx⟩ := hex
    rw [List.find?_eq_none] at hfi
    refine hfi ("v".toList ++ x) (List.mem_mergeSort.mpr (mem_tagsOf.mpr hx)) ?_
    rw [List.isPrefixOf_iff_prefix, tagPrefix_eq]
    exact List.prefix_append _ _
  | some t =>
    obtain ⟨ht, hp, hmin⟩ := find_sorted hfi
    rw [List.isPrefixOf_iff_prefix, tagPrefix_eq] at hp
    obtain ⟨x, rfl⟩ := hp
    refine ⟨x, mem_tagsOf.mp ht, fun x' hx' => ?_, ?_⟩
    · have := hmin _ (mem_tagsOf.mpr hx') (by
        rw [List.isPrefixOf_iff_prefix, tagPrefix_eq]; exact List.prefix_append _ _)
      rw [show "v".toList = ['v'] by decide] at this
      simpa [List.cons_le_cons_iff] using this
    · unfold getVersions versionsFromKeywords
      rw [hst, if_neg (by rw [List.isPrefixOf_iff_prefix]; rintro ⟨s, hs⟩; rw [show lit "$Format" = '$' :: lit "Format" by decide] at hs; cases hs), hr, hfi]
      simp only [orElse]
      rw [tagPrefix_eq, List.drop_left, strip_solid (hash_solid hf), fixDate_iso hd hz sd st sz]

/-- **C63.** Without such a tag the version is `0+unknown`, with the hash and an error. -/
theorem C63_no_tag (refs : List Str) (full date : Str) (file : Option (List Str)) (g : Git)
    (hne : refs ≠ []) (h : ∀ r ∈ refs, IsRef r) (hf : IsHash full)
    (hex : ∀ x, ¬ TagCandidate refs ("v".toList ++ x)) :
    getVersions ⟨gitRefs refs, full, date⟩ file g = .ok
      { version := "0+unknown".toList
        fullRevisionid := some full
        dirty := some false
        error := some "no suitable tags".toList
        date := none } := by
  obtain ⟨hr, hst⟩ := refsOf_gitRefs hne h
  have hfi : ((tagsOf refs).mergeSort (fun a b => decide (a ≤ b))).find? (tagPrefix.isPrefixOf ·) = none := by
    rw [List.find?_eq_none]
    intro t ht hp
    rw [List.isPrefixOf_iff_prefix, tagPrefix_eq] at hp
    obtain ⟨x, rfl⟩ := hp
    exact hex x (mem_tagsOf.mp (List.mem_mergeSort.mp ht))
  unfold getVersions versionsFromKeywords
  rw [hst, if_neg (by rw [List.isPrefixOf_iff_prefix]; rintro ⟨s, hs⟩; rw [show lit "$Format" = '$' :: lit "Format" by decide] at hs; cases hs), hr, hfi]
  simp only [orElse]
  rw [strip_solid (hash_solid hf)]
  rfl

/-- **C63.** The order in which git lists the refs does not matter. -/
theorem C63_order (refs refs' : List Str) (full date : Str) (file : Option (List Str)) (g : Git)
    (hne : refs ≠ []) (h : ∀ r ∈ refs, IsRef r) (hperm : refs.Perm refs') :
    getVersions ⟨gitRefs refs, full, date⟩ file g = getVersions ⟨gitRefs refs', full, date⟩ file g := by
  obtain ⟨hr, hst⟩ := refsOf_gitRefs hne h
  obtain ⟨hr', hst'⟩ := refsOf_gitRefs (refs := refs') (fun h0 => hne (by rw [h0] at hperm; exact hperm.eq_nil))
    (fun r hr => h r (hperm.mem_iff.mpr hr))
  have hmem : ∀ t, t ∈ tagsOf refs ↔ t ∈ tagsOf refs' := by
    intro t
    rw [mem_tagsOf, mem_tagsOf]
    unfold TagCandidate
    simp only [hperm.mem_iff]
  have hfind : ∀ p : Str → Bool, ((tagsOf refs).mergeSort (fun a b => decide (a ≤ b))).find? p =
      ((tagsOf refs').mergeSort (fun a b => decide (a ≤ b))).find? p := by
    intro p
    cases h1 : ((tagsOf refs).mergeSort (fun a b => decide (a ≤ b))).find? p with
    | none =>
      symm
      rw [List.find?_eq_none] at h1 ⊢
      intro t ht
      exact h1 t (List.mem_mergeSort.mpr ((hmem t).mpr (List.mem_mergeSort.mp ht)))
    | some t =>
      cases h2 : ((tagsOf refs').mergeSort (fun a b => decide (a ≤ b))).find? p with
      | none =>
        exfalso
        rw [List.find?_eq_none] at h2
        obtain ⟨a, b, _⟩ := find_sorted h1
        exact h2 t (List.mem_mergeSort.mpr ((hmem t).mp a)) b
      | some t' =>
        obtain ⟨a, b, c⟩ := find_sorted h1
        obtain ⟨a', b', c'⟩ := find_sorted h2
        rw [List.le_antisymm (c t' ((hmem t').mpr a') b') (c' t ((hmem t).mp a) b)]
  have hf : ∀ refs : List Str, (lit "$Format").isPrefixOf ('(' :: ((", ".toList).intercalate refs ++ [')'])) ≠ true := by
    intro refs
    rw [Ne, List.isPrefixOf_iff_prefix]
    rintro ⟨s, hs⟩
    rw [show lit "$Format" = '$' :: lit "Format" by decide] at hs
    cases hs
  unfold getVersions versionsFromKeywords
  rw [hst, hst', if_neg (hf _), if_neg (hf _), hr, hr', hfind]

end TwoLayer.Version
