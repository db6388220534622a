import Verif.Model.Installer
import Verif.Proofs.Version

set_option linter.unusedSimpArgs false

/-!
# C92, C93: `python versioneer.py setup`
-/

namespace TwoLayer.Version

/-! ## lines -/

theorem pyLines_newline (s t : Str) : pyLines (s ++ '\n' :: t) = pyLines (s ++ ['\n']) ++ pyLines t := by
  induction s with
  | nil => simp [pyLines]
  | cons c s ih =>
    rw [List.cons_append, List.cons_append, pyLines, pyLines, ih]
    split_ifs with h
    · rfl
    · have hne : pyLines (s ++ ['\n']) ≠ [] := by
        cases s with
        | nil => simp [pyLines]
        | cons d s =>
          rw [List.cons_append, pyLines]
          split_ifs
          · simp
          · split <;> simp
      cases h' : pyLines (s ++ ['\n']) with
      | nil => exact absurd h' hne
      | cons l ls => rfl

/-- missing, empty, or ending in a newline -/
def EndsLine (f : Option Str) : Prop := f.getD [] = [] ∨ ∃ s, f.getD [] = s ++ ['\n']

theorem EndsLine.lines {f : Option Str} (h : EndsLine f) (t : Str) :
    pyLines (f.getD [] ++ t) = pyLines (f.getD []) ++ pyLines t := by
  rcases h with h | ⟨s, h⟩
  · rw [h]; rfl
  · rw [h, List.append_assoc]
    exact pyLines_newline s t

theorem EndsLine.append (f : Option Str) (s : Str) : EndsLine (appendFile f (s ++ ['\n'])) :=
  .inr ⟨f.getD [] ++ s, by simp [appendFile]⟩

theorem getD_append (f : Option Str) (t : Str) : (appendFile f t).getD [] = f.getD [] ++ t := rfl

/-! ## `.gitattributes` -/

theorem attr_line : (pyLines (versionfileSource ++ lit " export-subst\n")).any marksExport = true := by decide +kernel

theorem setupAttributes_ends {f : Option Str} (h : EndsLine f) : setupAttributes (setupAttributes f) = setupAttributes f := by
  by_cases hp : (pyLines (f.getD [])).any marksExport
  · have : setupAttributes f = f := if_pos hp
    rw [this, this]
  · have e : setupAttributes f = appendFile f (versionfileSource ++ lit " export-subst\n") := if_neg hp
    rw [e]
    refine if_pos ?_
    rw [getD_append, h.lines, List.any_append, attr_line, Bool.or_true]

theorem setupAttributes_cases (f : Option Str) : setupAttributes f = f ∨ EndsLine (setupAttributes f) := by
  rw [setupAttributes]
  split_ifs
  · exact .inl rfl
  · right
    have : versionfileSource ++ lit " export-subst\n" = (versionfileSource ++ lit " export-subst") ++ ['\n'] := by decide +kernel
    rw [this]
    exact EndsLine.append _ _

/-! ## `MANIFEST.in` -/

theorem simpleIncludes_append {f : Option Str} (h : EndsLine f) (t : Str) :
    simpleIncludes (appendFile f t) = simpleIncludes f ++ simpleIncludes (some t) := by
  rw [simpleIncludes, getD_append, h.lines, List.filter_append, List.flatMap_append]
  rfl

theorem includes_versioneer : lit "versioneer.py" ∈ simpleIncludes (some (lit "include versioneer.py\n")) := by decide +kernel

theorem includes_source :
    versionfileSource ∈ simpleIncludes (some (lit "include " ++ versionfileSource ++ lit "\n")) := by decide +kernel

theorem line1 : lit "include versioneer.py\n" = lit "include versioneer.py" ++ ['\n'] := by decide +kernel

theorem line2 : lit "include " ++ versionfileSource ++ lit "\n" = (lit "include " ++ versionfileSource) ++ ['\n'] := by
  decide +kernel

theorem setupManifest_fixed {m : Option Str} (h1 : lit "versioneer.py" ∈ simpleIncludes m)
    (h2 : versionfileSource ∈ simpleIncludes m) : setupManifest m = m := by
  rw [setupManifest, if_pos h2, if_pos h1]

theorem setupManifest_ends {m : Option Str} (h : EndsLine m) :
    lit "versioneer.py" ∈ simpleIncludes (setupManifest m) ∧ versionfileSource ∈ simpleIncludes (setupManifest m) := by
  by_cases h1 : lit "versioneer.py" ∈ simpleIncludes m <;> by_cases h2 : versionfileSource ∈ simpleIncludes m
  · rw [setupManifest_fixed h1 h2]; exact ⟨h1, h2⟩
  · rw [setupManifest, if_neg h2, if_pos h1, simpleIncludes_append h]
    exact ⟨List.mem_append_left _ h1, List.mem_append_right _ includes_source⟩
  · rw [setupManifest, if_pos h2, if_neg h1, simpleIncludes_append h]
    exact ⟨List.mem_append_right _ includes_versioneer, List.mem_append_left _ h2⟩
  · have he : EndsLine (appendFile m (lit "include versioneer.py\n")) := by rw [line1]; exact EndsLine.append _ _
    rw [setupManifest, if_neg h2, if_neg h1, simpleIncludes_append he, simpleIncludes_append h]
    exact ⟨List.mem_append_left _ (List.mem_append_right _ includes_versioneer), List.mem_append_right _ includes_source⟩

theorem setupManifest_cases (m : Option Str) : setupManifest m = m ∨ EndsLine (setupManifest m) := by
  by_cases h1 : lit "versioneer.py" ∈ simpleIncludes m <;> by_cases h2 : versionfileSource ∈ simpleIncludes m
  · exact .inl (setupManifest_fixed h1 h2)
  · right; rw [setupManifest, if_neg h2, line2]; exact EndsLine.append _ _
  · right; rw [setupManifest, if_pos h2, if_neg h1, line1]; exact EndsLine.append _ _
  · right; rw [setupManifest, if_neg h2, line2]; exact EndsLine.append _ _

theorem setupManifest_idem {m : Option Str} (h : EndsLine m) : setupManifest (setupManifest m) = setupManifest m := by
  obtain ⟨h1, h2⟩ := setupManifest_ends h
  exact setupManifest_fixed h1 h2

/-! ## substrings -/

theorem contains_iff (x s : Str) : contains x s = true ↔ x <:+: s := by
  induction s with
  | nil => simp [contains]
  | cons c s ih => rw [contains, Bool.or_eq_true, List.isPrefixOf_iff_prefix, ih, List.infix_cons_iff]

theorem setupInit_idem (f : Option Str) : setupInit (setupInit f) = setupInit f := by
  cases f with
  | none => rfl
  | some s =>
    by_cases h : contains initPySnippet s
    · have : setupInit (some s) = some s := if_pos h
      rw [this, this]
    · have e : setupInit (some s) = some (s ++ initPySnippet) := if_neg h
      rw [e]
      exact if_pos ((contains_iff _ _).mpr (List.infix_append' s initPySnippet [] |>.trans (by simp)))

/-! ## C92 Re-running the installer -/

/-- Nothing a file contained is lost: the old text of `__init__.py`, `MANIFEST.in` and `.gitattributes` is the beginning
of the new one, and `__init__.py` is not created. -/
theorem C92_keeps (long : Str) (t : Tree) :
    (t.initPy = none → (doSetup long t).initPy = none) ∧
    t.initPy.getD [] <+: (doSetup long t).initPy.getD [] ∧
    t.manifest.getD [] <+: (doSetup long t).manifest.getD [] ∧
    t.attributes.getD [] <+: (doSetup long t).attributes.getD [] ∧
    (doSetup long t).versionFile = some long := by
  refine ⟨fun h => by simp [doSetup, h, setupInit], ?_, ?_, ?_, rfl⟩
  · cases h : t.initPy with
    | none => simp
    | some s =>
      simp only [doSetup, h, setupInit]
      split_ifs
      · exact List.prefix_refl _
      · exact List.prefix_append _ _
  · simp only [doSetup, setupManifest]
    split_ifs
    · exact List.prefix_refl _
    · exact List.prefix_append _ _
    · exact List.prefix_append _ _
    · simp only [getD_append, List.append_assoc]
      exact List.prefix_append _ _
  · simp only [doSetup, setupAttributes]
    split_ifs
    · exact List.prefix_refl _
    · exact List.prefix_append _ _

/-- If `MANIFEST.in` and `.gitattributes` are missing, empty or end in a newline, running the installer a second time
changes nothing. -/
theorem C92_idempotent (long : Str) (t : Tree) (hm : EndsLine t.manifest) (ha : EndsLine t.attributes) :
    doSetup long (doSetup long t) = doSetup long t := by
  simp only [doSetup, setupInit_idem, setupManifest_idem hm, setupAttributes_ends ha]

/-- Whatever the files contain, the third run changes nothing. -/
theorem C92_third_run (long : Str) (t : Tree) :
    doSetup long (doSetup long (doSetup long t)) = doSetup long (doSetup long t) := by
  have hm : setupManifest (setupManifest (setupManifest t.manifest)) = setupManifest (setupManifest t.manifest) := by
    rcases setupManifest_cases t.manifest with h | h
    · simp only [h]
    · exact setupManifest_idem h
  have ha : setupAttributes (setupAttributes (setupAttributes t.attributes)) = setupAttributes (setupAttributes t.attributes) := by
    rcases setupAttributes_cases t.attributes with h | h
    · simp only [h]
    · exact setupAttributes_ends h
  simp only [doSetup, setupInit_idem, hm, ha]

/-- The condition of `C92_idempotent` cannot be dropped: a last line without newline is glued to the line the installer
appends, so `versioneer.py` is still not included and the next run appends it again. -/
theorem C92_needs_newline (long : Str) : ∃ t : Tree, doSetup long (doSetup long t) ≠ doSetup long t := by
  refine ⟨⟨none, none, some "graft docs".toList, none⟩, fun h => ?_⟩
  have h2 : setupManifest (setupManifest (some "graft docs".toList)) = setupManifest (some "graft docs".toList) :=
    congrArg Tree.manifest h
  revert h2
  decide +kernel

/-- What the installer is for: afterwards `__init__.py` (if there is one) contains the version snippet, `MANIFEST.in`
includes `versioneer.py` and the version file, and `.gitattributes` has a line that starts with the version file and
lists `export-subst`. -/
theorem C92_installed (long : Str) (t : Tree) (hm : EndsLine t.manifest) (ha : EndsLine t.attributes) :
    (∀ s, (doSetup long t).initPy = some s →
      "\nfrom ._version import get_versions\n__version__ = get_versions()['version']\ndel get_versions\n".toList <:+: s) ∧
    (∀ f ∈ ["versioneer.py".toList, "src/openscm_twolayermodel/_version.py".toList],
      ∃ l ∈ pyLines ((doSetup long t).manifest.getD []), "include ".toList <+: l ∧ f ∈ (words l).drop 1) ∧
    ∃ l ∈ pyLines ((doSetup long t).attributes.getD []),
      "src/openscm_twolayermodel/_version.py".toList <+: strip l ∧ "export-subst".toList ∈ (words (strip l)).drop 1 := by
  refine ⟨?_, ?_, ?_⟩
  · intro s hs
    rw [← contains_iff]
    simp only [doSetup] at hs
    cases hi : t.initPy with
    | none => rw [hi] at hs; exact absurd hs (by simp [setupInit])
    | some old =>
      rw [hi] at hs
      by_cases h : contains initPySnippet old
      · have : setupInit (some old) = some old := if_pos h
        rw [this] at hs
        cases hs; exact h
      · have e : setupInit (some old) = some (old ++ initPySnippet) := if_neg h
        rw [e] at hs
        cases hs
        exact (contains_iff _ _).mpr ⟨old, [], by rw [List.append_nil]; rfl⟩
  · obtain ⟨h1, h2⟩ := setupManifest_ends hm
    have key : ∀ f, f ∈ simpleIncludes (setupManifest t.manifest) →
        ∃ l ∈ pyLines ((doSetup long t).manifest.getD []), "include ".toList <+: l ∧ f ∈ (words l).drop 1 := by
      intro f hf
      rw [simpleIncludes, List.mem_flatMap] at hf
      obtain ⟨l, hl, hfl⟩ := hf
      rw [List.mem_filter, List.isPrefixOf_iff_prefix] at hl
      exact ⟨l, hl.1, hl.2, hfl⟩
    intro f hf
    simp only [List.mem_cons, List.not_mem_nil, or_false] at hf
    rcases hf with rfl | rfl
    · exact key _ h1
    · exact key _ h2
  · have hany : (pyLines ((setupAttributes t.attributes).getD [])).any marksExport = true := by
      by_cases hp : (pyLines (t.attributes.getD [])).any marksExport
      · have : setupAttributes t.attributes = t.attributes := if_pos hp
        rw [this]; exact hp
      · have e : setupAttributes t.attributes = appendFile t.attributes (versionfileSource ++ lit " export-subst\n") := if_neg hp
        rw [e, getD_append, ha.lines, List.any_append, attr_line, Bool.or_true]
    obtain ⟨l, hl, hm⟩ := List.any_eq_true.mp hany
    rw [marksExport, Bool.and_eq_true, List.isPrefixOf_iff_prefix, decide_eq_true_iff] at hm
    exact ⟨l, hl, hm.1, hm.2⟩

/-- The installer's own test of `.gitattributes` is weaker than what git does: for a last line without newline that names
the version file it is satisfied by its own result although no line has the version file as its pattern. -/
theorem C92_attributes_gap (long : Str) : ∃ t : Tree,
    (∃ l ∈ pyLines ((doSetup long t).attributes.getD []),
      "src/openscm_twolayermodel/_version.py".toList <+: strip l ∧ "export-subst".toList ∈ (words (strip l)).drop 1) ∧
    ∀ l ∈ pyLines ((doSetup long t).attributes.getD []),
      (words l).head? ≠ some "src/openscm_twolayermodel/_version.py".toList := by
  refine ⟨⟨none, none, none, some "src/openscm_twolayermodel/_version.py".toList⟩, ?_, ?_⟩ <;> simp only [doSetup]
  · refine ⟨"src/openscm_twolayermodel/_version.pysrc/openscm_twolayermodel/_version.py export-subst\n".toList, ?_, ?_, ?_⟩ <;>
      decide +kernel
  · decide +kernel

/-- Concrete case: the tree of the repository.  Its `__init__.py` imports the version in other words than the snippet, so
the installer appends the snippet; `MANIFEST.in` and `.gitattributes` stay as they are. -/
example : let t : Tree := ⟨none, some "from ._version import get_versions\n__version__ = get_versions()[\"version\"]\n".toList,
      some "include README.rst\ninclude LICENSE\ninclude CHANGELOG.rst\n\ninclude versioneer.py\ninclude src/openscm_twolayermodel/_version.py\n".toList,
      some "src/openscm_twolayermodel/_version.py export-subst\n".toList⟩
    EndsLine t.manifest ∧ EndsLine t.attributes ∧ (doSetup [] t).manifest = t.manifest ∧
      (doSetup [] t).attributes = t.attributes ∧ (doSetup [] t).initPy ≠ t.initPy := by
  refine ⟨.inr ⟨"include README.rst\ninclude LICENSE\ninclude CHANGELOG.rst\n\ninclude versioneer.py\ninclude src/openscm_twolayermodel/_version.py".toList,
      by decide +kernel⟩, .inr ⟨"src/openscm_twolayermodel/_version.py export-subst".toList, by decide +kernel⟩, by decide +kernel, by decide +kernel, by decide +kernel⟩

/-! ## C93 The check of `setup.py` -/

theorem infix_lines {x s : Str} (hx : x ≠ []) (hn : '\n' ∉ x) : (∃ l ∈ pyLines s, x <:+: l) ↔ x <:+: s := by
  induction s with
  | nil => simp [pyLines, hx]
  | cons c s ih =>
    rw [List.infix_cons_iff, ← ih, pyLines]
    split_ifs with hc
    · subst hc
      have h1 : ¬ x <+: '\n' :: s := by
        rintro ⟨t, ht⟩
        cases x with
        | nil => exact hx rfl
        | cons d x => rw [List.cons_append] at ht; injection ht with h _; subst h; exact hn (by simp)
      have h2 : ¬ x <:+: ['\n'] := by
        intro h
        rw [List.infix_cons_iff] at h
        rcases h with ⟨t, ht⟩ | h
        · cases x with
          | nil => exact hx rfl
          | cons d x => rw [List.cons_append] at ht; injection ht with h _; subst h; exact hn (by simp)
        · exact hx (List.infix_nil.mp h)
      simp [h1, h2]
    · -- the first line grows by one character
      have pre : ∀ (l : Str) (ls : List Str), pyLines s = l :: ls → (x <+: c :: s ↔ x <+: c :: l) := by
        intro l ls hl
        have hs : ∃ r, s = l ++ r ∧ ('\n' ∈ l → ∃ l', l = l' ++ ['\n'] ∧ '\n' ∉ l') ∧ ('\n' ∉ l → r = []) := by
          clear ih
          induction s generalizing l ls with
          | nil => simp [pyLines] at hl
          | cons d s ih2 =>
            rw [pyLines] at hl
            split_ifs at hl with hd
            · injection hl with h1 h2
              subst h1
              exact ⟨s, by simp [hd], fun _ => ⟨[], by simp [hd]⟩, fun h => absurd (by simp [hd]) h⟩
            · cases hps : pyLines s with
              | nil =>
                rw [hps] at hl
                injection hl with h1 h2
                subst h1
                have : s = [] := by
                  cases s with
                  | nil => rfl
                  | cons e s => rw [pyLines] at hps; split_ifs at hps; split at hps <;> simp at hps
                subst this
                exact ⟨[], by simp, fun h => absurd h (by simpa [eq_comm] using hd), fun _ => rfl⟩
              | cons l0 ls0 =>
                rw [hps] at hl
                injection hl with h1 h2
                subst h1
                obtain ⟨r, e, a, b⟩ := ih2 l0 ls0 hps
                refine ⟨r, by rw [e]; rfl, fun h => ?_, fun h => b fun h' => h (List.mem_cons_of_mem _ h')⟩
                have : '\n' ∈ l0 := by
                  rcases List.mem_cons.mp h with h | h
                  · exact absurd h.symm hd
                  · exact h
                obtain ⟨l', e', n'⟩ := a this
                exact ⟨d :: l', by rw [e']; rfl, by simp [n', Ne.symm hd]⟩
        obtain ⟨r, e, a, b⟩ := hs
        constructor
        · intro h
          by_cases hln : '\n' ∈ l
          · obtain ⟨l', e', -⟩ := a hln
            -- a prefix without newline ends before the newline
            have hp : c :: l' <+: c :: s := ⟨'\n' :: r, by rw [e, e']; simp⟩
            have hle : x <+: c :: l' := by
              rcases List.prefix_or_prefix_of_prefix h hp with h' | h'
              · exact h'
              · obtain ⟨z, hz⟩ := h'
                cases z with
                | nil => rw [List.append_nil] at hz; rw [hz]
                | cons w z =>
                  exfalso
                  have hw : w = '\n' := by
                    obtain ⟨q, hq⟩ := h
                    rw [← hz, e, e'] at hq
                    have : (c :: l') ++ (w :: (z ++ q)) = (c :: l') ++ ('\n' :: r) := by
                      simpa using hq
                    have := List.append_cancel_left this
                    injection this
                  exact hn (by rw [← hz, hw]; simp)
            exact hle.trans ⟨['\n'], by rw [e']; rfl⟩
          · rw [e, b hln, List.append_nil] at h; exact h
        · intro h
          exact h.trans ⟨r, by rw [e]; rfl⟩
      cases hps : pyLines s with
      | nil =>
        have : s = [] := by
          cases s with
          | nil => rfl
          | cons e s => rw [pyLines] at hps; split_ifs at hps; split at hps <;> simp at hps
        subst this
        simp [List.infix_cons_iff, hx]
      | cons l ls =>
        simp only [List.mem_cons, exists_eq_or_imp, List.infix_cons_iff]
        rw [pre l ls hps, or_assoc]

theorem inSomeLine_iff {x : String} (s : Str) (hx : x.toList ≠ []) (hn : '\n' ∉ x.toList) :
    inSomeLine (lit x) s = true ↔ x.toList <:+: s := by
  rw [inSomeLine, List.any_eq_true, ← infix_lines hx hn]
  simp only [contains_iff]
  rfl

/-- The check passes exactly when `setup.py` contains the three calls and neither of the two old settings. -/
theorem C93_scan (s : Str) : scanSetupPy s = 0 ↔
    ("import versioneer".toList <:+: s ∧ "versioneer.get_cmdclass()".toList <:+: s ∧
      "versioneer.get_version()".toList <:+: s) ∧
    ¬ "versioneer.VCS".toList <:+: s ∧ ¬ "versioneer.versionfile_source".toList <:+: s := by
  rw [scanSetupPy]
  simp only [Nat.add_eq_zero_iff]
  have e1 := inSomeLine_iff (x := "import versioneer") s (by decide) (by decide)
  have e2 := inSomeLine_iff (x := "versioneer.get_cmdclass()") s (by decide) (by decide)
  have e3 := inSomeLine_iff (x := "versioneer.get_version()") s (by decide) (by decide)
  have e4 := inSomeLine_iff (x := "versioneer.VCS") s (by decide) (by decide)
  have e5 := inSomeLine_iff (x := "versioneer.versionfile_source") s (by decide) (by decide)
  rw [← e1, ← e2, ← e3, ← e4, ← e5]
  simp only [List.filter_cons, List.filter_nil]
  generalize inSomeLine (lit "import versioneer") s = b1
  generalize inSomeLine (lit "versioneer.get_cmdclass()") s = b2
  generalize inSomeLine (lit "versioneer.get_version()") s = b3
  generalize inSomeLine (lit "versioneer.VCS") s = b4
  generalize inSomeLine (lit "versioneer.versionfile_source") s = b5
  cases b1 <;> cases b2 <;> cases b3 <;> cases b4 <;> cases b5 <;> decide

/-- Concrete case: a `setup.py` that passes. -/
example : scanSetupPy "import versioneer\nsetup(version=versioneer.get_version(),\n cmdclass=versioneer.get_cmdclass())\n".toList = 0 ∧
    scanSetupPy "import versioneer\n".toList = 1 := by decide +kernel

end TwoLayer.Version
