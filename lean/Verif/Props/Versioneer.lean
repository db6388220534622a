import Verif.Proofs.Versioneer
import Verif.Props.Version
import Verif.Props.Version3

set_option linter.unusedSimpArgs false

/-!
# `setup.py` and the imported package agree; distributions keep their version (C78-C81)
-/

namespace TwoLayer.Version

/-- **C78.** Whatever git answers and wherever the tree lies, `versioneer.get_versions()` in `setup.py` and `get_versions()` of
the package imported from the same tree give the same record, or raise the same exception. -/
theorem C78_setup_agrees (text : Str) (k : Keywords) (f p s : Str) (root : List Str) (g : Git) (h : SourceFile text k) :
    setupVersions (some text) root g = (getVersions k (some (f :: p :: s :: root)) g).map Info.dict := by
  have hf : versionsFromFile (some text) = .error .notThisMethod := by
    obtain ⟨-, -, -, -, -, -, -, hn⟩ := h
    have h1 : ¬ lit "version_json = '''\n" <:+: text := fun hc => hn
      ((show "version_json = '''".toList <:+: lit "version_json = '''\n" from ⟨[], ['\n'], by decide⟩).trans hc)
    have h2 : ¬ lit "version_json = '''\r\n" <:+: text := fun hc => hn
      ((show "version_json = '''".toList <:+: lit "version_json = '''\r\n" from ⟨[], ['\r', '\n'], by decide⟩).trans hc)
    simp only [versionsFromFile, reBetween_none h1, reBetween_none h2]
  rw [setupVersions, keywords_source h, fromFileKeywords_eq, hf]
  simp only [getVersions, orElse_dict, List.drop_succ_cons, List.drop_zero, orElseD]
  rfl

/-- **C78.** If `_version.py` is missing or cannot be read, `setup.py` asks git and then the directory names, like the package
in a tree whose keywords git has not substituted. -/
theorem C78_unreadable (f p s : Str) (root : List Str) (g : Git) :
    setupVersions none root g = (getVersions Keywords.unexpanded (some (f :: p :: s :: root)) g).map Info.dict := by
  rw [setupVersions]
  have h1 : versionsFromFileKeywords tagPrefix (getKeywords none) = .error .notThisMethod := rfl
  have h2 : versionsFromFile none = .error .notThisMethod := rfl
  rw [h1, h2]
  simp only [getVersions, keywords_unexpanded, orElse_dict, List.drop_succ_cons, List.drop_zero, orElseD]
  rfl

/-- **C79.** In a tree whose `_version.py` was written by `setup.py build` or `sdist`, `setup.py` computes exactly the record
that was written, whatever git and the directory names say, and whatever characters the record contains. -/
theorem C79_frozen (i : Info) (root : List Str) (g : Git) : setupVersions (some i.file) root g = .ok i.dict := by
  rw [setupVersions, getKeywords_file, versionsFromFile_file]
  rfl

theorem dict_of (i : Info) : DictOf i.dict i := by
  refine ⟨by simp [Info.dict, lit], ⟨fun h => ?_, fun b h => ?_⟩, ⟨fun h => ?_, fun b h => ?_⟩, ⟨fun h => ?_, fun b h => ?_⟩,
    ⟨fun h => ?_, fun b h => ?_⟩, fun k hk => ?_⟩
  · show some (optStr i.fullRevisionid) = _; rw [h]; rfl
  · show some (optStr i.fullRevisionid) = _; rw [h]; rfl
  · show some (optBool i.dirty) = _; rw [h]; rfl
  · show some (optBool i.dirty) = _; rw [h]; rfl
  · show some (optStr i.error) = _; rw [h]; rfl
  · show some (optStr i.error) = _; rw [h]; rfl
  · show some (optStr i.date) = _; rw [h]; rfl
  · show some (optStr i.date) = _; rw [h]; rfl
  · simp only [List.mem_cons, List.not_mem_nil, or_false, not_or] at hk
    obtain ⟨h1, h2, h3, h4, h5⟩ := hk
    exact (if_neg h1).trans ((if_neg h2).trans ((if_neg h3).trans ((if_neg h4).trans (if_neg h5))))

/-- **C79.** The entries of that record: text for text, truth value for truth value, `None` for what is missing. -/
theorem C79_entries (i : Info) (root : List Str) (g : Git) : ∃ d, setupVersions (some i.file) root g = .ok d ∧ DictOf d i :=
  ⟨_, C79_frozen i root g, dict_of i⟩

/-- **C79.** Different records give different files. -/
theorem C79_file_injective (i j : Info) (h : i.file = j.file) : i = j := by
  have := (C79_frozen i [] ⟨[], [], [], [], []⟩).symm.trans ((congrArg (fun f => setupVersions (some f) [] ⟨[], [], [], [], []⟩) h).trans
    (C79_frozen j [] ⟨[], [], [], [], []⟩))
  have e := Except.ok.inj this
  have o : ∀ a b : Option Str, optStr a = optStr b → a = b := by
    intro a b hab; cases a <;> cases b <;> simp_all [optStr]
  have ob : ∀ a b : Option Bool, optBool a = optBool b → a = b := by
    intro a b hab; cases a <;> cases b <;> simp_all [optBool]
  obtain ⟨v, f, d, r, t⟩ := i
  obtain ⟨v', f', d', r', t'⟩ := j
  have e1 := congrFun e (lit "version")
  have e2 := congrFun e (lit "full-revisionid")
  have e3 := congrFun e (lit "dirty")
  have e4 := congrFun e (lit "error")
  have e5 := congrFun e (lit "date")
  simp [Info.dict] at e1
  have e2 : optStr f = optStr f' := Option.some.inj e2
  have e3 : optBool d = optBool d' := Option.some.inj e3
  have e4 : optStr r = optStr r' := Option.some.inj e4
  have e5 : optStr t = optStr t' := Option.some.inj e5
  rw [e1, o _ _ e2, ob _ _ e3, o _ _ e4, o _ _ e5]

/-- **C80 (partial).** Importing a built distribution reports the record computed when it was built, provided its texts
contain only characters from U+0020 to U+FFFF other than `"` and backslash, and no `'''`.  (Missing: other texts.  For those
the claim is false, see `C80_iff` and `C80_quote`.) -/
theorem C80_import_partial (i : Info) (h : i.Plain) : importedVersions i.file = .ok i.dict := imported_file h

/-- **C80, exactly when.** For a record whose other texts are plain, and a version without `'''` and without characters
beyond U+FFFF, importing the built distribution reports the record if and only if the version contains no `"`, no backslash
and no control character. -/
theorem C80_iff (i : Info) (hv : (∀ c ∈ i.version, c.toNat < 65536) ∧ ¬ "'''".toList <:+: i.version)
    (h : (∀ s ∈ i.fullRevisionid, PlainText s) ∧ (∀ s ∈ i.error, PlainText s) ∧ ∀ s ∈ i.date, PlainText s) :
    importedVersions i.file = .ok i.dict ↔ ∀ c ∈ i.version, 32 ≤ c.toNat ∧ c ≠ '"' ∧ c ≠ '\\' := by
  rw [imported_iff hv h]
  exact ⟨fun hp c hc => ⟨(hp.1 c hc).1, (hp.1 c hc).2.2⟩, fun hp => ⟨fun c hc => ⟨(hp c hc).1, hv.1 c hc, (hp c hc).2⟩, hv.2⟩⟩

/-- Concrete cases: an accent is fine, a version that smuggles in a second `version` entry is not. -/
example : importedVersions (Info.file ⟨"1.0é".toList, none, some false, none, none⟩) =
      .ok (Info.dict ⟨"1.0é".toList, none, some false, none, none⟩) ∧
    importedVersions (Info.file ⟨"1\", \"version\": \"2".toList, none, some false, none, none⟩) ≠
      .ok (Info.dict ⟨"1\", \"version\": \"2".toList, none, some false, none, none⟩) := by
  constructor
  · exact (C80_iff _ ⟨by decide, by decide⟩ ⟨fun _ h => by (cases h), fun _ h => by (cases h), fun _ h => by (cases h)⟩).mpr (by decide)
  · exact fun hc => absurd ((C80_iff _ ⟨by decide, by decide⟩ ⟨fun _ h => by (cases h), fun _ h => by (cases h),
      fun _ h => by (cases h)⟩).mp hc) (by decide)

/-- **C80, the full statement fails.** A `"` in the version (git allows it in a tag) makes importing the built package raise,
although `setup.py` reads the same file correctly: the JSON escape is swallowed by the Python literal. -/
theorem C80_quote : ∃ i : Info, (∀ root g, setupVersions (some i.file) root g = .ok i.dict) ∧
    importedVersions i.file = .error .value := by
  refine ⟨⟨"1\"0".toList, none, some false, none, none⟩, C79_frozen _, ?_⟩
  have ha : afterFirst (lit "version_json = '''") (Info.file ⟨"1\"0".toList, none, some false, none, none⟩) = some ('\n' :: (Info.dumps
      ⟨"1\"0".toList, none, some false, none, none⟩ ++ ['\n'] ++ (lit "'''  # END VERSION_JSON" ++ shortOutro))) := by
    rw [file_eq, afterFirst_append intro_noStart.2]
    simp [lit, afterFirst]
  have hb : ∀ x : Except VErr Dict, (match x with | .error .value => true | _ => false) = true → x = .error .value := by
    intro x hx
    rcases x with (_ | _ | _ | _ | _ | _) | _ <;> simp at hx ⊢
  rw [importedVersions, ha]
  exact hb _ (by decide +kernel)

theorem tame_plain {s : Str} (h : Tame s) : PlainText s := by
  refine ⟨fun c hc => ⟨(h c hc).1, by have := (h c hc).2.1; omega, (h c hc).2.2.1, (h c hc).2.2.2.2⟩, fun hi => ?_⟩
  exact (h '\'' (hi.subset (by decide))).2.2.2.1 rfl

theorem Tame.append {s t : Str} (h1 : Tame s) (h2 : Tame t) : Tame (s ++ t) := fun c hc =>
  (List.mem_append.mp hc).elim (h1 c) (h2 c)

instance (s : Str) : Decidable (Tame s) := by unfold Tame; infer_instance

theorem tame_of_mem {s : Str} (l : Str) (hl : Tame l) (h : ∀ c ∈ s, c ∈ l) : Tame s := fun c hc => hl c (h c hc)

theorem hash_tame {h : Str} (hh : IsHash h) : Tame h := tame_of_mem _ (by decide) hh.2

theorem digits_tame (n : Nat) : Tame (digits n) := by
  intro c hc
  rw [digits_eq] at hc
  have := dec_digit hc
  simp only [Char.isDigit, Bool.and_eq_true, decide_eq_true_eq] at this
  have h1 : 48 ≤ c.toNat := this.1
  have h2 : c.toNat ≤ 57 := this.2
  exact ⟨by omega, by omega, by rintro rfl; revert h1; decide, by rintro rfl; revert h1; decide, by rintro rfl; revert h2; decide⟩

theorem pep440_tame {x h : Str} {n : Nat} {d : Bool} (hx : Tame x) (hh : Tame h) : Tame (pep440 x n h d) := by
  unfold pep440
  split_ifs
  · exact hx
  all_goals
    refine ((((hx.append ?_).append (digits_tame n)).append ?_).append hh).append ?_ <;> decide

/-- **C81.** A release or development build from a git checkout of tag `vX`: `setup.py` computes the PEP 440 version of the
checkout; a source distribution made from it keeps that version wherever it is unpacked and whatever git says there; and the
package installed from either reports it as `__version__`. -/
theorem C81_release_chain (text x h full day time zone : Str) (n : Nat) (d : Bool) (root : List Str) (g : Git)
    (ht : SourceFile text Keywords.unexpanded) (C : Checkout g full day time zone) (hx : x ≠ []) (hs : Solid x) (hh : IsHash h)
    (hdesc : Prints g.describe (describeTagged ("v".toList ++ x) n h d)) (tx : Tame x) (td : Tame day) (tt : Tame time)
    (tz : Tame zone) :
    ∃ i : Info, i.version = pep440 x n h d ∧ setupVersions (some text) root g = .ok i.dict ∧
      (∀ root' g', setupVersions (some i.file) root' g' = .ok i.dict) ∧
      (importedVersions i.file).bind versionOf = .ok (.str (pep440 x n h d)) := by
  refine ⟨⟨pep440 x n h d, some full, some d, none, some (isoDate day time zone)⟩, rfl, ?_, C79_frozen _, ?_⟩
  · rw [C78_setup_agrees text _ [] [] [] root g ht, C58_tagged x h full day time zone n d g _ C hx hs hh hdesc]
    rfl
  · rw [C80_import_partial _ ⟨tame_plain (pep440_tame tx (hash_tame hh)),
        fun s hs => by cases hs; exact tame_plain (hash_tame C.full_hash), fun s hs => (by cases hs),
        fun s hs => by cases hs; exact tame_plain (((td.append (by decide)).append tt).append tz)⟩]
    rfl

/-! ## Concrete cases -/

namespace Ex

/-- `_version.py:20-30` with these keywords -/
def sourceText (r f d : String) : Str := joinLines [
  "def get_keywords():".toList,
  "    \"\"\"Get the keywords needed to look up the version information.\"\"\"".toList,
  "    # these strings will be replaced by git during git-archive.".toList,
  "    # setup.py/versioneer.py will grep for the variable names, so they must".toList,
  "    # each be defined on a line of their own. _version.py will just call".toList,
  "    # get_keywords().".toList,
  "    git_refnames = \"".toList ++ r.toList ++ "\"".toList,
  "    git_full = \"".toList ++ f.toList ++ "\"".toList,
  "    git_date = \"".toList ++ d.toList ++ "\"".toList,
  "    keywords = {\"refnames\": git_refnames, \"full\": git_full, \"date\": git_date}".toList,
  "    return keywords".toList]

theorem free_of_silent {start l : Str} {c0 : Char} {r0 : Str} (hs : start = c0 :: r0) (h0 : isSpace c0 = false)
    (h : Silent start l) : LineFree start l := by
  intro w rest e
  by_contra hc
  push Not at hc
  apply h
  have hw : ∀ c ∈ w, isSpace c = true := fun c hw => by
    have := hc c hw
    simp only [show " \t\n\r\x0b\x0c".toList = [' ', '\t', '\n', '\r', '\x0b', '\x0c'] from rfl, List.mem_cons, List.not_mem_nil,
      or_false] at this
    simp only [isSpace, Bool.or_eq_true, decide_eq_true_eq]
    tauto
  rw [e, List.append_assoc, List.dropWhile_append_of_pos hw, hs, List.cons_append, List.dropWhile_cons, h0]
  simp

/-- C78, C81: the source file in the repository -/
theorem source_unexpanded : SourceFile (sourceText "$Format:%d$" "$Format:%H$" "$Format:%ci$") Keywords.unexpanded := by
  refine ⟨[
  "def get_keywords():".toList,
  "    \"\"\"Get the keywords needed to look up the version information.\"\"\"".toList,
  "    # these strings will be replaced by git during git-archive.".toList,
  "    # setup.py/versioneer.py will grep for the variable names, so they must".toList,
  "    # each be defined on a line of their own. _version.py will just call".toList,
  "    # get_keywords().".toList], [
  "    keywords = {\"refnames\": git_refnames, \"full\": git_full, \"date\": git_date}".toList,
  "    return keywords".toList], rfl, ?_, by decide, by decide, by decide, ?_⟩
  · intro l hl
    have : ∀ l ∈ ([
      "def get_keywords():".toList,
      "    \"\"\"Get the keywords needed to look up the version information.\"\"\"".toList,
      "    # these strings will be replaced by git during git-archive.".toList,
      "    # setup.py/versioneer.py will grep for the variable names, so they must".toList,
      "    # each be defined on a line of their own. _version.py will just call".toList,
      "    # get_keywords().".toList] ++ [
      "    keywords = {\"refnames\": git_refnames, \"full\": git_full, \"date\": git_date}".toList,
      "    return keywords".toList] : List Str), '\n' ∉ l ∧ Mute l := by decide +kernel
    obtain ⟨h1, h2, h3, h4⟩ := this l hl
    exact ⟨h1, free_of_silent rfl (by decide) h2, free_of_silent rfl (by decide) h3, free_of_silent rfl (by decide) h4⟩
  · decide +kernel

/-- C81: a checkout three commits after v1.0-rc -/
example (root : List Str) : ∃ i : Info, i.version = "1.0-rc+3.g0a1b2c3.dirty".toList ∧
    setupVersions (some (sourceText "$Format:%d$" "$Format:%H$" "$Format:%ci$")) root git = .ok i.dict ∧
    (importedVersions i.file).bind versionOf = .ok (.str "1.0-rc+3.g0a1b2c3.dirty".toList) := by
  obtain ⟨i, h1, h2, -, h3⟩ := C81_release_chain _ "1.0-rc".toList "0a1b2c3".toList _ _ _ _ 3 true root git source_unexpanded
    checkout (by decide) (by unfold Solid; decide) hash ⟨0, [], by decide +kernel⟩ (by decide) (by decide) (by decide) (by decide)
  have e : pep440 "1.0-rc".toList 3 "0a1b2c3".toList true = "1.0-rc+3.g0a1b2c3.dirty".toList := by decide +kernel
  rw [e] at h1 h3
  exact ⟨i, h1, h2, h3⟩

/-- C79: a version with a quotation mark, a backslash, a newline, an accent and a character outside the basic plane is kept -/
example (root : List Str) (g : Git) : setupVersions (some (Info.file ⟨"1\"\\\né😀'''".toList, none, none, none, none⟩)) root g =
    .ok (Info.dict ⟨"1\"\\\né😀'''".toList, none, none, none, none⟩) := C79_frozen _ root g

/-- what is written for it -/
example : (Info.mk "1\"\\\né😀".toList none none none none).dumps =
    "{\n \"date\": null,\n \"dirty\": null,\n \"error\": null,\n \"full-revisionid\": null,\n \"version\": \"1\\\"\\\\\\n\\u00e9\\ud83d\\ude00\"\n}".toList := by
  decide +kernel

end Ex

end TwoLayer.Version
