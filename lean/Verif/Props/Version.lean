import Verif.Proofs.Version

/-!
# C58, C59, C61–C65: the version string
-/

set_option linter.unusedSimpArgs false
set_option linter.unusedVariables false

namespace TwoLayer.Version

theorem gitPieces_tagged {tp tag h full date : Str} {n : Nat} {d : Bool} {g : Git}
    (hdir : (runCommand g.gitDir).2 = some 0)
    (htag : tag ≠ []) (hs : Solid tag) (hh : IsHash h) (hf : IsHash full)
    (hdesc : Prints g.describe (describeTagged tag n h d)) (hhead : Prints g.head full)
    (hdate : (runCommand g.date).1 = some date) :
    gitPieces tp g = .ok (if tp <+: tag then ⟨full, h, none, d, some (tag.drop tp.length), n, fixDate date⟩ else
      ⟨full, full.take 7, some (lit "tag '" ++ tag ++ lit "' doesn't start with prefix '" ++ tp ++ lit "'"), d, none, 0, []⟩) := by
  have hx : NumHex (dec n) h := ⟨dec_ne n, List.all_eq_true.mpr fun c hc => dec_digit hc, hh.1, hash_isHex hh⟩
  have hnl : ∀ c ∈ tag, c ≠ '\n' := by
    rintro c hc rfl
    exact hs _ hc (by decide)
  have hsol : Solid (describeTagged tag n h d) := by
    unfold describeTagged
    rw [digits_eq]
    exact ((((hs.append solid_lits.1).append (digit_solid hx.n_digit)).append solid_lits.2.1).append (hash_solid hh)).append
      (dirtySuffix_solid d)
  have hcore : describeTagged tag n h d = (tag ++ '-' :: (dec n ++ '-' :: 'g' :: h)) ++ dirtySuffix d := by
    unfold describeTagged
    rw [digits_eq, show "-".toList = ['-'] by decide, show "-g".toList = ['-', 'g'] by decide]
    simp
  have hend : ∀ t, tag ++ '-' :: (dec n ++ '-' :: 'g' :: h) ≠ t ++ "-dirty".toList := by
    have := hash_end (s := tag ++ '-' :: (dec n ++ ['-', 'g'])) hh
    simpa using this
  obtain ⟨hd1, hd2⟩ := dirty_detect hend d
  unfold gitPieces
  rw [if_neg (by simpa using hdir), prints_run hdesc hsol, prints_run hhead (hash_solid hf)]
  simp only [strip_solid hsol, strip_solid (hash_solid hf)]
  rw [hcore, hd2, hd1, if_pos (by simp), reDescribe_complete htag hnl hx]
  simp only [List.isPrefixOf_iff_prefix, int_dec]
  by_cases hp : tp <+: tag
  · simp only [hp, not_true, if_false, if_true, hdate]; rfl
  · simp only [hp, not_false_eq_true, if_false, if_true]

theorem gitPieces_untagged {tp h full date : Str} {n : Nat} {d : Bool} {g : Git}
    (hdir : (runCommand g.gitDir).2 = some 0) (hh : IsHash h) (hf : IsHash full)
    (hdesc : Prints g.describe (describeUntagged h d)) (hhead : Prints g.head full)
    (hcount : Prints g.count (digits n)) (hdate : (runCommand g.date).1 = some date) :
    gitPieces tp g = .ok ⟨full, full.take 7, none, d, none, n, fixDate date⟩ := by
  have hsol : Solid (describeUntagged h d) := (hash_solid hh).append (dirtySuffix_solid d)
  have hnd : '-' ∉ h := fun hc => isHex_ne (List.all_eq_true.mp (hash_isHex hh) _ hc) rfl
  obtain ⟨hd1, hd2⟩ := dirty_detect (s := h) (by simpa using hash_end (s := []) hh) d
  have hds : Solid (digits n) := by
    rw [digits_eq]; exact digit_solid (List.all_eq_true.mpr fun c hc => dec_digit hc)
  unfold gitPieces
  rw [if_neg (by simpa using hdir), prints_run hdesc hsol, prints_run hhead (hash_solid hf)]
  simp only [strip_solid hsol, strip_solid (hash_solid hf)]
  rw [show describeUntagged h d = h ++ dirtySuffix d from rfl, hd2, hd1, if_neg hnd, prints_run hcount hds, digits_eq]
  simp only [int_dec, hdate]
  rfl

/-! ## C59: parsing what `git describe` printed -/

/-- **C59.** Parsing `TAG-NUM-gHEX[-dirty]` recovers the tag without the prefix, the distance, the hash and dirtiness, also
when the tag contains hyphens (or itself looks like a description). -/
theorem C59_tagged (pfx x h full day time zone : Str) (n : Nat) (d : Bool) (g : Git) (C : Checkout g full day time zone)
    (hne : pfx ++ x ≠ []) (hs : Solid (pfx ++ x)) (hh : IsHash h)
    (hdesc : Prints g.describe (describeTagged (pfx ++ x) n h d)) :
    gitPieces pfx g = .ok
      { long := full
        short := h
        error := none
        dirty := d
        closestTag := some x
        distance := n
        date := isoDate day time zone } := by
  rw [gitPieces_tagged (date := gitDate day time zone) (by rw [prints_run C.gitDir (by unfold Solid; decide)]) hne hs hh
    C.full_hash hdesc C.head (by rw [prints_date C.date C.day_ne C.zone_ne C.day_solid C.zone_solid]),
    if_pos (List.prefix_append _ _), List.drop_left, fixDate_iso C.day_ne C.zone_ne C.day_solid C.time_solid C.zone_solid]

/-- **C59.** A tag without the prefix is reported as an error, with the commit and dirtiness. -/
theorem C59_other_prefix (pfx tag h full day time zone : Str) (n : Nat) (d : Bool) (g : Git)
    (C : Checkout g full day time zone) (hp : ¬ pfx <+: tag)
    (hne : tag ≠ []) (hs : Solid tag) (hh : IsHash h)
    (hdesc : Prints g.describe (describeTagged tag n h d)) :
    ∃ p, gitPieces pfx g = .ok p ∧ p.long = full ∧ p.dirty = d ∧
      p.error = some ("tag '".toList ++ tag ++ "' doesn't start with prefix '".toList ++ pfx ++ "'".toList) := by
  have := gitPieces_tagged (tp := pfx) (date := gitDate day time zone)
    (by rw [prints_run C.gitDir (by unfold Solid; decide)]) hne hs hh
    C.full_hash hdesc C.head (by rw [prints_date C.date C.day_ne C.zone_ne C.day_solid C.zone_solid])
  rw [if_neg hp] at this
  exact ⟨_, this, rfl, rfl, rfl⟩

/-- **C59.** Without a tag: `HASH[-dirty]`; the distance is the number of commits. -/
theorem C59_untagged (pfx h full day time zone : Str) (n : Nat) (d : Bool) (g : Git) (C : Checkout g full day time zone)
    (hh : IsHash h) (hdesc : Prints g.describe (describeUntagged h d)) (hcount : Prints g.count (digits n)) :
    gitPieces pfx g = .ok
      { long := full
        short := full.take 7
        error := none
        dirty := d
        closestTag := none
        distance := n
        date := isoDate day time zone } := by
  rw [gitPieces_untagged (date := gitDate day time zone) (by rw [prints_run C.gitDir (by unfold Solid; decide)]) hh
    C.full_hash hdesc C.head hcount (by rw [prints_date C.date C.day_ne C.zone_ne C.day_solid C.zone_solid]),
    fixDate_iso C.day_ne C.zone_ne C.day_solid C.time_solid C.zone_solid]

theorem gitPieces_sound {pfx : Str} {g : Git} {p : Pieces} {x : Str} (hp : gitPieces pfx g = .ok p) (hx : p.closestTag = some x) :
    ∃ num : Str, num ≠ [] ∧ (∀ c ∈ num, c.isDigit = true) ∧ Nat.ofDigitChars 10 num 0 = p.distance ∧
      p.short ≠ [] ∧ (∀ c ∈ p.short, c ∈ "0123456789abcdef".toList) ∧ p.error = none ∧
      ((runCommand g.describe).1.map strip) =
        some (pfx ++ x ++ "-".toList ++ num ++ "-g".toList ++ p.short ++ dirtySuffix p.dirty) := by
  unfold gitPieces at hp
  split at hp
  · cases hp
  split at hp
  · cases hp
  next out hout =>
  split at hp
  · cases hp
  next fl hfl =>
  dsimp only at hp
  have hsplit := dirty_split (strip out)
  generalize (if (lit "-dirty").isSuffixOf (strip out) = true then
    (strip out).take ((strip out).length - 6) else strip out) = desc at hp hsplit
  split at hp
  · next hdash =>
    split at hp
    · cases hp; simp at hx
    · next ft num hex hre =>
      split at hp
      · cases hp; simp at hx
      · next hpre =>
        simp only [not_not, List.isPrefixOf_iff_prefix] at hpre
        obtain ⟨r, rfl⟩ := hpre
        obtain ⟨e, _, _, nh⟩ := reDescribe_sound hre
        have hint : int num = .ok (Nat.ofDigitChars 10 num 0) := by
          unfold int; rw [if_pos ⟨nh.n_ne, nh.n_digit⟩]
        rw [hint] at hp
        replace hp : (match (runCommand g.date).1 with
          | none => Except.error VErr.attribute
          | some date => Except.ok (⟨strip fl, hex, none, (lit "-dirty").isSuffixOf (strip out),
              some ((pfx ++ r).drop pfx.length), Nat.ofDigitChars 10 num 0, fixDate date⟩ : Pieces)) = .ok p := hp
        split at hp
        · cases hp
        · cases hp
          simp only [List.drop_left, Option.some.injEq] at hx
          subst hx
          refine ⟨num, nh.n_ne, List.all_eq_true.mp nh.n_digit, rfl, nh.h_ne, ?_, rfl, ?_⟩
          · intro c hc
            have := List.all_eq_true.mp nh.h_hex c hc
            have e : "0123456789abcdef".toList = ['0','1','2','3','4','5','6','7','8','9','a','b','c','d','e','f'] := by decide
            rw [e]
            exact isHex_mem this
          · rw [hout]
            simp only [Option.map_some, Option.some.injEq]
            refine hsplit.trans ?_
            rw [e, show "-".toList = ['-'] by decide, show "-g".toList = ['-', 'g'] by decide] 
            simp
  · split at hp
    · cases hp
    · next cnt hcnt =>
      cases hi : int cnt with
      | error e => rw [hi] at hp; cases hp
      | ok k =>
        rw [hi] at hp
        replace hp : (match (runCommand g.date).1 with
          | none => Except.error VErr.attribute
          | some date => Except.ok (⟨strip fl, (strip fl).take 7, none, (lit "-dirty").isSuffixOf (strip out),
              none, k, fixDate date⟩ : Pieces)) = .ok p := hp
        split at hp
        · cases hp
        · cases hp; cases hx

/-- **C59 (converse).** Whatever git answered: if parsing reports a tag, then `git describe` succeeded and printed, up to
white space around it, exactly that tag with the prefix, a distance in digits with that value and that hash, and `-dirty`
just if dirty is reported. -/
theorem C59_sound (pfx : Str) (g : Git) (p : Pieces) (x : Str) (hp : gitPieces pfx g = .ok p) (hx : p.closestTag = some x) :
    ∃ num raw : Str, IsNumber num ∧ Nat.ofDigitChars 10 num 0 = p.distance ∧ IsHash p.short ∧ p.error = none ∧
      Answers g.describe raw ∧
      Padded raw (pfx ++ x ++ "-".toList ++ num ++ "-g".toList ++ p.short ++ dirtySuffix p.dirty) := by
  obtain ⟨num, h1, h2, h3, h4, h5, h6, h7⟩ := gitPieces_sound hp hx
  obtain ⟨out, ho, ho'⟩ := Option.map_eq_some_iff.mp h7
  obtain ⟨raw, hr, hr'⟩ := answers_of_run ho
  refine ⟨num, raw, ⟨h1, fun c hc => ?_⟩, h3, ⟨h4, h5⟩, h6, hr, ?_⟩
  · exact digit_mem (h2 c hc)
  · rw [← ho', ← hr', strip_strip]
    exact padded_strip raw

/-! ## C58: the version string -/

theorem tagPrefix_eq : tagPrefix = "v".toList := by decide

theorem keywords_unexpanded (pfx : Str) : versionsFromKeywords pfx Keywords.unexpanded = .error .notThisMethod := by
  have : (lit "$Format").isPrefixOf (strip Keywords.unexpanded.refnames) = true := by decide
  unfold versionsFromKeywords
  rw [if_pos this]

theorem getVersions_git {file : List Str} {g : Git} {p : Pieces} (hp : gitPieces tagPrefix g = .ok p) {i : Info}
    (hr : render p "pep440" = .ok i) : getVersions Keywords.unexpanded (some file) g = .ok i := by
  unfold getVersions
  rw [keywords_unexpanded]
  simp only [orElse, hp]
  rw [show (do let p ← (Except.ok p : Except VErr Pieces); render p "pep440") = render p "pep440" from rfl, hr]

theorem render_pep440 {p : Pieces} (he : p.error = none) :
    render p "pep440" = .ok ⟨renderPep440 p, some p.long, some p.dirty, none, some p.date⟩ := by
  unfold render
  rw [he]
  rfl

theorem renderPep440_untagged {p : Pieces} (h : p.tag = none) :
    renderPep440 p = pep440Untagged p.distance p.short p.dirty := by
  unfold renderPep440 pep440Untagged
  rw [h, digits_eq]
  rfl

/-- **C58.** In a git checkout `n` commits after tag `vX`, with abbreviated hash `h`: the version is `X` on a clean tag and
`X+N.gH[.dirty]` otherwise, and the full hash, dirtiness and date are reported. -/
theorem C58_tagged (x h full day time zone : Str) (n : Nat) (d : Bool) (g : Git) (file : List Str)
    (C : Checkout g full day time zone) (hx : x ≠ []) (hs : Solid x) (hh : IsHash h)
    (hdesc : Prints g.describe (describeTagged ("v".toList ++ x) n h d)) :
    getVersions Keywords.unexpanded (some file) g = .ok
      { version := pep440 x n h d
        fullRevisionid := some full
        dirty := some d
        error := none
        date := some (isoDate day time zone) } := by
  have hp := C59_tagged tagPrefix x h full day time zone n d g C (by simp [tagPrefix, lit])
    (Solid.append (by unfold Solid; decide) hs) hh hdesc
  refine getVersions_git hp ((render_pep440 rfl).trans ?_)
  congr 2
  have ht : (⟨full, h, none, d, some x, n, isoDate day time zone⟩ : Pieces).tag = some x := by
    simp [Pieces.tag, hx]
  unfold renderPep440
  rw [ht]
  simp only [pep440, plusOrDot, Option.getD_some, lit, digits_eq]
  by_cases hn : n = 0 <;> cases d <;> simp [hn]

/-- **C58.** A clean checkout of the tag `vX` has version `X`. -/
theorem C58_release (x h full day time zone : Str) (g : Git) (file : List Str)
    (C : Checkout g full day time zone) (hx : x ≠ []) (hs : Solid x) (hh : IsHash h)
    (hdesc : Prints g.describe (describeTagged ("v".toList ++ x) 0 h false)) :
    (getVersions Keywords.unexpanded (some file) g).map Info.version = .ok x := by
  rw [C58_tagged x h full day time zone 0 false g file C hx hs hh hdesc]
  simp [Except.map, pep440]

/-- **C58.** Without any tag: `0+untagged.COUNT.gHASH[.dirty]`. -/
theorem C58_untagged (h full day time zone : Str) (n : Nat) (d : Bool) (g : Git) (file : List Str)
    (C : Checkout g full day time zone) (hh : IsHash h)
    (hdesc : Prints g.describe (describeUntagged h d)) (hcount : Prints g.count (digits n)) :
    getVersions Keywords.unexpanded (some file) g = .ok
      { version := pep440Untagged n (full.take 7) d
        fullRevisionid := some full
        dirty := some d
        error := none
        date := some (isoDate day time zone) } := by
  have hp := C59_untagged tagPrefix h full day time zone n d g C hh hdesc hcount
  rw [getVersions_git hp (render_pep440 rfl), renderPep440_untagged rfl]

/-- **C58.** The tag `v` alone counts as no tag: the distance is then counted from it, not from the first commit. -/
theorem C58_bare_prefix (h full day time zone : Str) (n : Nat) (d : Bool) (g : Git) (file : List Str)
    (C : Checkout g full day time zone) (hh : IsHash h)
    (hdesc : Prints g.describe (describeTagged "v".toList n h d)) :
    (getVersions Keywords.unexpanded (some file) g).map Info.version = .ok (pep440Untagged n h d) := by
  rw [show "v".toList = tagPrefix ++ [] by decide] at hdesc
  have hp := C59_tagged tagPrefix [] h full day time zone n d g C (by simp [tagPrefix, lit])
    (Solid.append (by unfold Solid tagPrefix lit; decide) solid_lits.2.2.2) hh hdesc
  rw [getVersions_git hp (render_pep440 rfl), renderPep440_untagged rfl]
  simp only [Except.map]

/-- **C58.** A description whose tag does not start with `v` gives "unknown", the commit and an error. -/
theorem C58_other_tag (tag h full day time zone : Str) (n : Nat) (d : Bool) (g : Git) (file : List Str)
    (C : Checkout g full day time zone) (ht : tag ≠ []) (hv : ¬ "v".toList <+: tag) (hs : Solid tag) (hh : IsHash h)
    (hdesc : Prints g.describe (describeTagged tag n h d)) :
    getVersions Keywords.unexpanded (some file) g = .ok
      { version := "unknown".toList
        fullRevisionid := some full
        dirty := none
        error := some ("tag '".toList ++ tag ++ "' doesn't start with prefix 'v'".toList)
        date := none } := by
  rw [← tagPrefix_eq] at hv
  obtain ⟨p, hp, h1, h2, h3⟩ := C59_other_prefix tagPrefix tag h full day time zone n d g C hv ht hs hh hdesc
  refine getVersions_git hp ?_
  unfold render
  rw [h3, h1, tagPrefix_eq, show "' doesn't start with prefix 'v'".toList =
    "' doesn't start with prefix '".toList ++ "v".toList ++ "'".toList by decide]
  simp only [List.append_assoc, lit]

/-- **C58.** A description with a hyphen that is not of the form `TAG-NUM-gHEX` gives "unknown", the commit and an error. -/
theorem C58_unparseable (desc full day time zone : Str) (d : Bool) (g : Git) (file : List Str)
    (C : Checkout g full day time zone) (hs : Solid desc) (hdash : '-' ∈ desc) (hend : ∀ t, desc ≠ t ++ "-dirty".toList)
    (hno : ∀ tag num hex : Str, IsHash hex → desc ≠ tag ++ "-".toList ++ num ++ "-g".toList ++ hex)
    (hdesc : Prints g.describe (desc ++ dirtySuffix d)) :
    ∃ e, getVersions Keywords.unexpanded (some file) g = .ok
      { version := "unknown".toList
        fullRevisionid := some full
        dirty := none
        error := some e
        date := none } := by
  have hsol : Solid (desc ++ dirtySuffix d) := hs.append (dirtySuffix_solid d)
  obtain ⟨hd1, hd2⟩ := dirty_detect hend d
  have hre : reDescribe desc = none := by
    cases hr : reDescribe desc with
    | none => rfl
    | some r =>
      obtain ⟨tag, n, h⟩ := r
      obtain ⟨e, _, _, x⟩ := reDescribe_sound hr
      refine absurd ?_ (hno tag n h ⟨x.h_ne, fun c hc => ?_⟩)
      · rw [e, show "-".toList = ['-'] by decide, show "-g".toList = ['-', 'g'] by decide]
        simp
      · exact isHex_mem (List.all_eq_true.mp x.h_hex c hc)
  have hp : ∃ p, gitPieces tagPrefix g = .ok p ∧ p.long = full ∧ p.error.isSome := by
    refine ⟨⟨full, full.take 7, some (lit "unable to parse git-describe output: '" ++ (desc ++ dirtySuffix d) ++ lit "'"), d,
      none, 0, []⟩, ?_, rfl, rfl⟩
    unfold gitPieces
    rw [if_neg (by rw [prints_run C.gitDir (by unfold Solid; decide)]; simp), prints_run hdesc hsol,
      prints_run C.head (hash_solid C.full_hash)]
    simp only [strip_solid hsol, strip_solid (hash_solid C.full_hash)]
    rw [hd2, hd1, if_pos hdash, hre]
  obtain ⟨p, hp, h1, h2⟩ := hp
  obtain ⟨e, he⟩ := Option.isSome_iff_exists.mp h2
  refine ⟨e, getVersions_git hp ?_⟩
  unfold render
  rw [he, h1]
  rfl

end TwoLayer.Version
