import Verif.Props.Version2

/-!
# C64, C65: fallbacks and failures of the version computation; examples
-/

set_option linter.unusedSimpArgs false
set_option linter.unusedVariables false

namespace TwoLayer.Version

/-! ## C65: the name of the directory -/

theorem parentdir_find {pfx : Str} : ∀ {k : Nat} {root : List Str},
    (∃ i v, i < k ∧ (root.drop i).headD [] = pfx ++ v ∧ (∀ j < i, ¬ pfx <+: (root.drop j).headD []) ∧
      versionsFromParentdir pfx k root = .ok ⟨v, none, some false, none, none⟩) ∨
    ((∀ j < k, ¬ pfx <+: (root.drop j).headD []) ∧ versionsFromParentdir pfx k root = .error .notThisMethod)
  | 0, root => Or.inr ⟨fun j hj => absurd hj (by omega), rfl⟩
  | k + 1, root => by
    unfold versionsFromParentdir
    by_cases h : pfx <+: root.headD []
    · left
      obtain ⟨v, hv⟩ := h
      refine ⟨0, v, by omega, by simpa using hv.symm, fun j hj => absurd hj (by omega), ?_⟩
      rw [← hv]
      simp [List.isPrefixOf_iff_prefix]
    · have hif : ∀ x y : Except VErr Info, (if pfx.isPrefixOf (root.headD []) then x else y) = y := by
        intro x y; rw [if_neg (by rw [List.isPrefixOf_iff_prefix]; exact h)]
      dsimp only
      rw [hif]
      rcases parentdir_find (pfx := pfx) (k := k) (root := root.tail) with ⟨i, v, h1, h2, h3, h4⟩ | ⟨h1, h2⟩
      · left
        refine ⟨i + 1, v, by omega, ?_, ?_, h4⟩
        · rw [← h2, ← List.drop_one, List.drop_drop, Nat.add_comm]
        · intro j hj
          cases j with
          | zero => simpa using h
          | succ j =>
            have := h3 j (by omega)
            rwa [← List.drop_one, List.drop_drop, Nat.add_comm] at this
      · right
        refine ⟨?_, h2⟩
        intro j hj
        cases j with
        | zero => simpa using h
        | succ j =>
          have := h1 j (by omega)
          rwa [← List.drop_one, List.drop_drop, Nat.add_comm] at this

/-- git cannot be run, or this is no repository -/
def NoGit (g : Git) : Prop := Fails g.gitDir

theorem getVersions_noGit {file : List Str} {g : Git} (hg : NoGit g) :
    getVersions Keywords.unexpanded (some file) g =
      orElse (versionsFromParentdir parentdirPrefix 3 (file.drop 3)) fun _ =>
          .ok ⟨lit "0+unknown", none, none, some (lit "unable to compute version"), none⟩ := by
  have : gitPieces tagPrefix g = .error .notThisMethod := by
    unfold gitPieces; unfold NoGit at hg; rw [if_pos (fails_iff'.mpr hg)]
  unfold getVersions
  rw [keywords_unexpanded, this]
  rfl

/-- **C65.** Without keywords and git: if the innermost of the source tree's directory, its parent and grandparent whose name
starts with `openscm_twolayermodel-` is `openscm_twolayermodel-V`, the version is `V`.  The package file is
`…/ROOT/src/openscm_twolayermodel/_version.py`. -/
theorem C65_parentdir (inner ancestors : List Str) (f p s v : Str) (g : Git) (hg : NoGit g)
    (hi : inner.length < 3) (hn : ∀ n ∈ inner, ¬ "openscm_twolayermodel-".toList <+: n) :
    getVersions Keywords.unexpanded
      (some (f :: p :: s :: (inner ++ ("openscm_twolayermodel-".toList ++ v) :: ancestors))) g = .ok
      { version := v
        fullRevisionid := none
        dirty := some false
        error := none
        date := none } := by
  have he : parentdirPrefix = "openscm_twolayermodel-".toList := by decide
  rw [getVersions_noGit hg]
  simp only [List.drop_succ_cons, List.drop_zero]
  have hpre : ∀ j, j < inner.length → ¬ parentdirPrefix <+:
      ((inner ++ ("openscm_twolayermodel-".toList ++ v) :: ancestors).drop j).headD [] := by
    intro j hj
    rw [List.drop_append_of_le_length (by omega), List.drop_eq_getElem_cons hj, he]
    exact hn _ (List.getElem_mem hj)
  have hat : ((inner ++ ("openscm_twolayermodel-".toList ++ v) :: ancestors).drop inner.length).headD [] =
      parentdirPrefix ++ v := by
    rw [List.drop_left, he]; rfl
  rcases parentdir_find (pfx := parentdirPrefix) (k := 3)
      (root := inner ++ ("openscm_twolayermodel-".toList ++ v) :: ancestors) with ⟨i, w, h1, h2, h3, h4⟩ | ⟨h1, h2⟩
  · have hii : i = inner.length := by
      rcases Nat.lt_trichotomy i inner.length with hlt | heq | hgt
      · exact absurd (by rw [h2]; exact List.prefix_append _ _) (hpre i hlt)
      · exact heq
      · exact absurd (by rw [hat]; exact List.prefix_append _ _) (h3 _ hgt)
    subst hii
    rw [hat] at h2
    rw [h4, List.append_cancel_left h2]
    rfl
  · exact absurd (by rw [hat]; exact List.prefix_append _ _) (h1 _ hi)

/-- **C65.** If none of the three names starts with the prefix, the version is `0+unknown` with an error. -/
theorem C65_no_parentdir (f p s : Str) (root : List Str) (g : Git) (hg : NoGit g)
    (hn : ∀ n ∈ root.take 3, ¬ "openscm_twolayermodel-".toList <+: n) :
    getVersions Keywords.unexpanded (some (f :: p :: s :: root)) g = .ok
      { version := "0+unknown".toList
        fullRevisionid := none
        dirty := none
        error := some "unable to compute version".toList
        date := none } := by
  have he : parentdirPrefix = "openscm_twolayermodel-".toList := by decide
  rw [getVersions_noGit hg]
  simp only [List.drop_succ_cons, List.drop_zero]
  rcases parentdir_find (pfx := parentdirPrefix) (k := 3) (root := root) with ⟨i, w, h1, h2, h3, h4⟩ | ⟨h1, h2⟩
  · exfalso
    by_cases hl : i < root.length
    · rw [List.drop_eq_getElem_cons hl] at h2
      simp only [List.headD_cons] at h2
      refine hn root[i] ?_ (by rw [h2, he]; exact List.prefix_append _ _)
      rw [List.mem_take_iff_getElem]
      exact ⟨i, by omega, rfl⟩
    · rw [List.drop_eq_nil_of_le (by omega), he] at h2
      simp at h2
  · rw [h2]; rfl

/-! ## C64: precedence and failure -/

/-- **C64.** With substituted keywords, git and the directory are not asked. -/
theorem C64_keywords_first (k : Keywords) (file file' : Option (List Str)) (g g' : Git)
    (hk : ¬ "$Format".toList <+: strip k.refnames) : getVersions k file g = getVersions k file' g' := by
  have hne : versionsFromKeywords tagPrefix k ≠ .error .notThisMethod := by
    unfold versionsFromKeywords
    rw [if_neg (by rw [List.isPrefixOf_iff_prefix]; exact hk)]
    split <;> simp
  unfold getVersions
  cases h : versionsFromKeywords tagPrefix k with
  | ok i => rfl
  | error e => cases e <;> first | rfl | exact absurd h hne

/-- **C64.** Without keywords and without `__file__` nothing else is tried. -/
theorem C64_no_file (g : Git) : getVersions Keywords.unexpanded none g = .ok
      { version := "0+unknown".toList
        fullRevisionid := none
        dirty := none
        error := some "unable to find root of source tree".toList
        date := none } := by
  unfold getVersions
  rw [keywords_unexpanded]
  rfl

/-- the failures of parsing git's answers -/
theorem gitPieces_error {pfx : Str} {g : Git} {e : VErr} (h : gitPieces pfx g = .error e) :
    (e = .notThisMethod ∧ ((runCommand g.gitDir).2 ≠ some 0 ∨ (runCommand g.describe).1 = none ∨ (runCommand g.head).1 = none)) ∨
    ((runCommand g.gitDir).2 = some 0 ∧ (runCommand g.describe).1 ≠ none ∧ (runCommand g.head).1 ≠ none ∧
      ((e = .attribute ∧ (runCommand g.date).1 = none) ∨ (e = .type ∧ (runCommand g.count).1 = none) ∨
      (e = .value ∧ ∃ c, (runCommand g.count).1 = some c ∧ ¬ (c ≠ [] ∧ c.all Char.isDigit = true)))) := by
  unfold gitPieces at h
  split at h
  · next h0 => cases h; exact Or.inl ⟨rfl, Or.inl h0⟩
  next h0 =>
  have h0 : (runCommand g.gitDir).2 = some 0 := by simpa using h0
  split at h
  · next h1 => cases h; exact Or.inl ⟨rfl, Or.inr (Or.inl h1)⟩
  next out hout =>
  split at h
  · next h1 => cases h; exact Or.inl ⟨rfl, Or.inr (Or.inr h1)⟩
  next fl hfl =>
  refine Or.inr ⟨h0, by rw [hout]; simp, by rw [hfl]; simp, ?_⟩
  dsimp only at h
  generalize (if (lit "-dirty").isSuffixOf (strip out) = true then
    (strip out).take ((strip out).length - 6) else strip out) = desc at h
  split at h
  · split at h
    · cases h
    · next ft num hex hre =>
      split at h
      · cases h
      · obtain ⟨_, _, _, nh⟩ := reDescribe_sound hre
        have hint : int num = .ok (Nat.ofDigitChars 10 num 0) := by
          unfold int; rw [if_pos ⟨nh.n_ne, nh.n_digit⟩]
        rw [hint] at h
        replace h : (match (runCommand g.date).1 with
          | none => Except.error VErr.attribute
          | some date => Except.ok (⟨strip fl, hex, none, (lit "-dirty").isSuffixOf (strip out),
              some (ft.drop pfx.length), Nat.ofDigitChars 10 num 0, fixDate date⟩ : Pieces)) = .error e := h
        split at h
        · next hd => cases h; exact Or.inl ⟨rfl, hd⟩
        · cases h
  · split at h
    · next hc => cases h; exact Or.inr (Or.inl ⟨rfl, hc⟩)
    · next cnt hcnt =>
      cases hi : int cnt with
      | error e' =>
        rw [hi] at h
        cases h
        refine Or.inr (Or.inr ?_)
        unfold int at hi
        split at hi
        · cases hi
        · next hn => cases hi; exact ⟨rfl, cnt, hcnt, hn⟩
      | ok k =>
        rw [hi] at h
        replace h : (match (runCommand g.date).1 with
          | none => Except.error VErr.attribute
          | some date => Except.ok (⟨strip fl, (strip fl).take 7, none, (lit "-dirty").isSuffixOf (strip out),
              none, k, fixDate date⟩ : Pieces)) = .error e := h
        split at h
        · next hd => cases h; exact Or.inl ⟨rfl, hd⟩
        · cases h

theorem getVersions_raises {k : Keywords} {file : Option (List Str)} {g : Git} {e : VErr} (h : getVersions k file g = .error e) :
    "$Format".toList <+: strip k.refnames ∧ file ≠ none ∧
    (runCommand g.gitDir).2 = some 0 ∧ (runCommand g.describe).1 ≠ none ∧ (runCommand g.head).1 ≠ none ∧
      ((e = .attribute ∧ (runCommand g.date).1 = none) ∨ (e = .type ∧ (runCommand g.count).1 = none) ∨
      (e = .value ∧ ∃ c, (runCommand g.count).1 = some c ∧ ¬ (c ≠ [] ∧ c.all Char.isDigit = true))) := by
  by_cases hk : "$Format".toList <+: strip k.refnames
  · refine ⟨hk, ?_⟩
    have hkw : versionsFromKeywords tagPrefix k = .error .notThisMethod := by
      unfold versionsFromKeywords
      rw [if_pos (by rw [List.isPrefixOf_iff_prefix]; exact hk)]
    unfold getVersions at h
    rw [hkw] at h
    simp only [orElse] at h
    cases file with
    | none => cases h
    | some file =>
      refine ⟨by simp, ?_⟩
      cases hg : gitPieces tagPrefix g with
      | ok p =>
        exfalso
        rw [hg] at h
        replace h : orElse (render p "pep440") (fun _ => orElse (versionsFromParentdir parentdirPrefix 3 (file.drop 3))
          fun _ => .ok ⟨lit "0+unknown", none, none, some (lit "unable to compute version"), none⟩) = .error e := h
        have : ∃ i, render p "pep440" = .ok i := by
          unfold render
          cases p.error with
          | none => exact ⟨_, rfl⟩
          | some e => exact ⟨_, rfl⟩
        obtain ⟨i, hi⟩ := this
        rw [hi] at h
        cases h
      | error e' =>
        rcases gitPieces_error hg with ⟨rfl, _⟩ | ⟨h1, h2, h3, h4⟩
        · exfalso
          rw [hg] at h
          replace h : orElse (versionsFromParentdir parentdirPrefix 3 (file.drop 3))
            (fun _ => .ok ⟨lit "0+unknown", none, none, some (lit "unable to compute version"), none⟩) = .error e := h
          rcases parentdir_find (pfx := parentdirPrefix) (k := 3) (root := file.drop 3) with ⟨i, v, _, _, _, h5⟩ | ⟨_, h5⟩
          · rw [h5] at h; cases h
          · rw [h5] at h; cases h
        · refine ⟨h1, h2, h3, ?_⟩
          rw [hg] at h
          have : e' = e := by
            rcases h4 with ⟨rfl, _⟩ | ⟨rfl, _⟩ | ⟨rfl, _⟩ <;> · cases h; rfl
          subst this
          exact h4
  · exfalso
    have hne : ∃ i, versionsFromKeywords tagPrefix k = .ok i := by
      unfold versionsFromKeywords
      rw [if_neg (by rw [List.isPrefixOf_iff_prefix]; exact hk)]
      split
      · exact ⟨_, rfl⟩
      · exact ⟨_, rfl⟩
    obtain ⟨i, hi⟩ := hne
    unfold getVersions at h
    rw [hi] at h
    cases h

/-- **C64.** The only ways computing the version can raise, for all keywords, paths and answers of git: git answers
`rev-parse` and `describe` but then `git show` fails (AttributeError), `git rev-list --count` fails (TypeError) or prints no
number (ValueError). -/
theorem C64_raises_only (k : Keywords) (file : Option (List Str)) (g : Git) (e : VErr) (h : getVersions k file g = .error e) :
    file ≠ none ∧ ¬ Fails g.gitDir ∧ ¬ Fails g.describe ∧ ¬ Fails g.head ∧
      ((e = .attribute ∧ Fails g.date) ∨ (e = .type ∧ Fails g.count) ∨
      (e = .value ∧ ∃ raw, Answers g.count raw ∧ ∀ num, IsNumber num → ¬ Padded raw num)) := by
  obtain ⟨-, h1, h2, h3, h4, h5⟩ := getVersions_raises h
  refine ⟨h1, fun h => h.run.2 h2, fun h => h3 h.run.1, fun h => h4 h.run.1, ?_⟩
  rcases h5 with ⟨a, b⟩ | ⟨a, b⟩ | ⟨a, c, hc, b⟩
  · exact Or.inl ⟨a, fails_iff.mp b⟩
  · exact Or.inr (Or.inl ⟨a, fails_iff.mp b⟩)
  · obtain ⟨raw, hr, rfl⟩ := answers_of_run hc
    refine Or.inr (Or.inr ⟨a, raw, hr, fun num hn hp => b ?_⟩)
    have hsol : Solid num := by
      have := digit_solid (s := num) (List.all_eq_true.mpr fun c hc => mem_digit (hn.2 c hc))
      exact this
    rw [strip_padded hp hsol]
    exact ⟨hn.1, List.all_eq_true.mpr fun c hc => mem_digit (hn.2 c hc)⟩

/-- **C64.** If any of the first three git commands fails -- `rev-parse --git-dir`, `describe`, `rev-parse HEAD`; git missing,
not startable or returning an error, whatever it prints -- the version is the one computed without git. -/
theorem C64_git_fails (k : Keywords) (file : Option (List Str)) (g g' : Git)
    (h : Fails g.gitDir ∨ Fails g.describe ∨ Fails g.head) (h' : Fails g'.gitDir) :
    getVersions k file g = getVersions k file g' := by
  have key : ∀ g : Git, Fails g.gitDir ∨ Fails g.describe ∨ Fails g.head → gitPieces tagPrefix g = .error .notThisMethod := by
    intro g h
    unfold gitPieces
    by_cases h0 : Fails g.gitDir
    · rw [if_pos (fails_iff'.mpr h0)]
    · rw [if_neg (fun hc => h0 (fails_iff'.mp hc))]
      rcases h with h | h | h
      · exact absurd h h0
      · rw [h.run.1]
      · rw [h.run.1]
        cases (runCommand g.describe).1 <;> rfl
  unfold getVersions
  rw [key g h, key g' (Or.inl h')]

/-- **C64.** That can happen: in a tagged checkout where `git show` fails, importing the package raises AttributeError instead
of falling back. -/
theorem C64_show_fails (x h full : Str) (n : Nat) (d : Bool) (g : Git) (file : List Str)
    (hdir : Prints g.gitDir ".git".toList) (hf : IsHash full) (hhead : Prints g.head full)
    (hs : Solid x) (hh : IsHash h) (hdesc : Prints g.describe (describeTagged ("v".toList ++ x) n h d))
    (hdate : Fails g.date) :
    getVersions Keywords.unexpanded (some file) g = .error .attribute := by
  have hx : NumHex (dec n) h := ⟨dec_ne n, List.all_eq_true.mpr fun c hc => dec_digit hc, hh.1, hash_isHex hh⟩
  have hsv : Solid ("v".toList ++ x) := Solid.append (by unfold Solid; decide) hs
  have hnl : ∀ c ∈ "v".toList ++ x, c ≠ '\n' := by
    rintro c hc rfl
    exact hsv _ hc (by decide)
  have hsol : Solid (describeTagged ("v".toList ++ x) n h d) := by
    unfold describeTagged
    rw [digits_eq]
    exact ((((hsv.append solid_lits.1).append (digit_solid hx.n_digit)).append solid_lits.2.1).append (hash_solid hh)).append
      (dirtySuffix_solid d)
  have hcore : describeTagged ("v".toList ++ x) n h d =
      (("v".toList ++ x) ++ '-' :: (dec n ++ '-' :: 'g' :: h)) ++ dirtySuffix d := by
    unfold describeTagged
    rw [digits_eq, show "-".toList = ['-'] by decide, show "-g".toList = ['-', 'g'] by decide]
    simp
  have hend : ∀ t, ("v".toList ++ x) ++ '-' :: (dec n ++ '-' :: 'g' :: h) ≠ t ++ "-dirty".toList := by
    have := hash_end (s := ("v".toList ++ x) ++ '-' :: (dec n ++ ['-', 'g'])) hh
    simpa using this
  obtain ⟨hd1, hd2⟩ := dirty_detect hend d
  have hp : gitPieces tagPrefix g = .error .attribute := by
    unfold gitPieces
    rw [if_neg (by rw [prints_run hdir (by unfold Solid; decide)]; simp), prints_run hdesc hsol,
      prints_run hhead (hash_solid hf)]
    simp only [strip_solid hsol, strip_solid (hash_solid hf)]
    rw [hcore, hd2, hd1, if_pos (by simp), reDescribe_complete (by simp) hnl hx]
    simp only [int_dec, tagPrefix_eq, List.isPrefixOf_iff_prefix]
    rw [if_neg (by simp)]
    simp only [hdate.run.1]
    rfl
  unfold getVersions
  rw [keywords_unexpanded, hp]
  rfl

/-! ## Concrete cases -/

namespace Ex

/-- a checkout three commits after v1.0-rc, with changes -/
def git : Git where
  gitDir := [.enoent, .ran ".git\n".toList 0]
  describe := [.ran "v1.0-rc-3-g0a1b2c3-dirty\n".toList 0]
  head := [.ran "0a1b2c3d4e5f60718293a4b5c6d7e8f901234567\n".toList 0]
  count := [.ran "41\n".toList 0]
  date := [.ran "2020-07-05 10:20:30 +1000\n".toList 0]

theorem checkout : Checkout git "0a1b2c3d4e5f60718293a4b5c6d7e8f901234567".toList "2020-07-05".toList "10:20:30".toList
    "+1000".toList where
  gitDir := ⟨1, [], by decide +kernel⟩
  full_hash := ⟨by decide, by decide⟩
  head := ⟨0, [], by decide +kernel⟩
  day_ne := by decide
  zone_ne := by decide
  day_solid := by unfold Solid; decide
  time_solid := by unfold Solid; decide
  zone_solid := by unfold Solid; decide
  date := ⟨0, [], by decide +kernel⟩

theorem hash : IsHash "0a1b2c3".toList := ⟨by decide, by decide⟩

/-- C58, C59, C61, C62: the hypotheses hold for this checkout, whose tag contains a hyphen -/
example : getVersions Keywords.unexpanded (some ["_version.py".toList, "openscm_twolayermodel".toList, "src".toList]) git =
    .ok ⟨"1.0-rc+3.g0a1b2c3.dirty".toList, some "0a1b2c3d4e5f60718293a4b5c6d7e8f901234567".toList, some true, none,
      some "2020-07-05T10:20:30+1000".toList⟩ := by
  rw [C58_tagged "1.0-rc".toList "0a1b2c3".toList _ _ _ _ 3 true git _ checkout (by decide) (by unfold Solid; decide) hash
    ⟨0, [], by decide +kernel⟩]
  congr 2 <;> decide +kernel

/-- an untagged checkout -/
def untagged : Git := { git with describe := [.ran "0a1b2c3\n".toList 0] }

example : (getVersions Keywords.unexpanded (some []) untagged).map Info.version = .ok "0+untagged.41.g0a1b2c3".toList := by
  rw [C58_untagged "0a1b2c3".toList _ _ _ _ 41 false untagged [] { checkout with } hash ⟨0, [], by decide +kernel⟩
    ⟨0, [], by decide +kernel⟩]
  decide +kernel

/-- C58: a tag with another prefix, and a description that does not parse -/
example : ¬ "v".toList <+: "release-1".toList ∧ Solid "release-1".toList := ⟨by decide, by unfold Solid; decide⟩

example : '-' ∈ "v1-2-x".toList ∧ (∀ t, "v1-2-x".toList ≠ t ++ "-dirty".toList) ∧
    ∀ tag num hex : Str, IsHash hex → "v1-2-x".toList ≠ tag ++ "-".toList ++ num ++ "-g".toList ++ hex := by
  have last : ∀ (a b : Str) (c : Char), "v1-2-x".toList = a ++ b ++ [c] → c = 'x' := by
    intro a b c h
    rw [show "v1-2-x".toList = "v1-2-".toList ++ ['x'] by decide] at h
    have := (List.append_inj' h rfl).2
    simpa using this.symm
  refine ⟨by decide, fun t h => ?_, fun tag num hex hh h => ?_⟩
  · rw [show "-dirty".toList = "-dirt".toList ++ ['y'] by decide, ← List.append_assoc] at h
    exact absurd (last _ _ _ h) (by decide)
  · obtain ⟨l, c, rfl⟩ := List.eq_nil_or_concat hex |>.resolve_left hh.1
    rw [List.concat_eq_append, ← List.append_assoc] at h
    have hc := last _ _ _ h
    subst hc
    exact absurd (hh.2 'x' (by simp)) (by decide)

/-- C63: refs of an archived commit with two version tags -/
def refs : List Str := ["HEAD -> master".toList, "tag: v1.0rc1".toList, "tag: v1.0".toList, "origin/master".toList]

theorem refs_ok : ∀ r ∈ refs, IsRef r := by
  have key : ∀ r : Str, r ≠ [] → (∀ c ∈ r, c ∉ ",()".toList) → (∀ c ∈ r.head?, c ∉ " \t\n\r\x0b\x0c".toList) →
      (∀ c ∈ r.getLast?, c ∉ " \t\n\r\x0b\x0c".toList) → IsRef r := by
    intro r h1 h2 h3 h4
    refine ⟨h1, h2, ?_, ?_⟩
    · rintro c s rfl; exact h3 c (by simp)
    · rintro s c rfl; exact h4 c (by simp)
  intro r hr
  fin_cases hr <;> exact key _ (by decide) (by decide) (by decide) (by decide)

example : getVersions ⟨gitRefs refs, "0a1b".toList, gitDate "d".toList "t".toList "z".toList⟩ none git =
    .ok ⟨"1.0".toList, some "0a1b".toList, some false, none, some "dTtz".toList⟩ := by
  obtain ⟨x, h1, h2, h3⟩ := C63_keywords refs "0a1b".toList "d".toList "t".toList "z".toList none git (by decide) refs_ok
    ⟨by decide, by decide⟩ (by decide) (by decide) (by unfold Solid; decide) (by unfold Solid; decide) (by unfold Solid; decide)
    ⟨"1.0".toList, Or.inl (by decide)⟩
  have hx : x = "1.0".toList := by
    refine List.le_antisymm (h2 _ (Or.inl (by decide))) ?_
    have ht : "tag: ".toList ++ ("v".toList ++ x) ∈ refs := by
      rcases h1 with h | ⟨h, _⟩
      · exact h
      · exact absurd (by decide) (h "v1.0".toList)
    have hcases : x = "1.0rc1".toList ∨ x = "1.0".toList := by
      simp only [refs, List.mem_cons, List.not_mem_nil, or_false] at ht
      rcases ht with h | h | h | h
      · exact absurd (congrArg (fun l => l.head?) h) (by simp)
      · left
        have := congrArg (List.drop 6) h
        simpa using this
      · right
        have := congrArg (List.drop 6) h
        simpa using this
      · exact absurd (congrArg (fun l => l.head?) h) (by simp)
    rcases hcases with rfl | rfl <;> decide
  rw [h3, hx]
  congr 2 <;> decide +kernel

/-- C65: an unpacked source archive, git not installed -/
example : NoGit ⟨[.enoent], [], [], [], []⟩ := ⟨1, Or.inl rfl⟩

/-- C64: a repository in which `git describe` dies after printing something -/
example : Fails ({ git with describe := [.ran "v1.0-0-gabc".toList 128] } : Git).describe :=
  ⟨0, Or.inr ⟨[], Or.inr ⟨_, 128, by decide, rfl⟩⟩⟩

end Ex

end TwoLayer.Version
