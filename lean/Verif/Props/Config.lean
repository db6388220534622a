import Verif.Proofs.ConfigMain
import Verif.Model.Release

/-!
# C120: reading and completing `setup.cfg`
-/

set_option linter.unusedSimpArgs false

namespace TwoLayer.Version

/-- (1) The file of this repository is read as the configuration that the other commands are about. -/
theorem C120_repository : getConfig (some setupCfg) = .ok {
    vcs := lit "git"
    style := lit "pep440"
    versionfileSource := some versionfileSource
    versionfileBuild := some (lit "openscm_twolayermodel/_version.py")
    tagPrefix := some (lit "v")
    parentdirPrefix := some (lit "openscm_twolayermodel-")
    verbose := none } := by
  have hl : ∀ ls : List String, (∀ l ∈ ls, '\n' ∉ lit l) →
      pyLines (ls.flatMap fun l => lit l ++ ['\n']) = ls.map fun l => lit l ++ ['\n'] := by
    intro ls h
    induction ls with
    | nil => rfl
    | cons l ls ih =>
      rw [List.flatMap_cons, List.append_assoc, List.singleton_append, pyLines_line (h l (by simp)),
        ih fun m hm => h m (List.mem_cons_of_mem _ hm), List.map_cons]
  have h1 : pyLines setupCfg = setupCfgLines.map fun l => lit l ++ ['\n'] := hl _ (by decide +kernel)
  unfold getConfig cfgParse
  simp only [h1]
  decide +kernel

/-- The paths in it are those `sdist` and `build` write to. -/
theorem C120_paths : versionfileSource = List.intercalate ['/'] sourceVersionfile ∧
    lit "openscm_twolayermodel/_version.py" = List.intercalate ['/'] buildVersionfile := by decide +kernel

/-- (2) Other sections, before and after, do not matter to what versioneer reads, as long as both files can be read and have no options
under `[DEFAULT]`. -/
theorem C120_sections {a a' c d d' : Str} (ha : WholeLines a) (ha' : WholeLines a') (hc : WholeLines c) (hd : FromHeader d)
    (hd' : FromHeader d') {s s' : CfgState} (h : cfgParse (a ++ lit "[versioneer]\n" ++ c ++ d) = .ok s)
    (h' : cfgParse (a' ++ lit "[versioneer]\n" ++ c ++ d') = .ok s') (hn : ∀ e ∈ s.opts, e.sec ≠ lit "DEFAULT")
    (hn' : ∀ e ∈ s'.opts, e.sec ≠ lit "DEFAULT") :
    getConfig (some (a ++ lit "[versioneer]\n" ++ c ++ d)) = getConfig (some (a' ++ lit "[versioneer]\n" ++ c ++ d')) := by
  unfold getConfig
  simp only [h, h']
  exact section_config ha ha' hc hd hd' h h' hn hn'

theorem getConfig_ok {t : Str} {s : CfgState} (h : cfgParse t = .ok s) : getConfig (some t) = s.config := by
  unfold getConfig
  simp only [h]

/-- (3) `versioneer.py setup` writes to `setup.cfg` only if there is none or it can be read and has no section `[versioneer]`; then it puts
the sample after what there is and returns 1. -/
theorem C120_setup_when (f : Option Str) : ((setupConfig f).1 = f ∨
    ((setupConfig f).1 = some (f.getD [] ++ sampleConfig) ∧ (setupConfig f).2 = .ok none ∧
      (f = none ∨ ∃ t s, f = some t ∧ cfgParse t = .ok s ∧ lit "versioneer" ∉ s.secs))) := by
  unfold setupConfig
  cases hg : getConfig f with
  | ok c => exact .inl rfl
  | error e =>
    cases e with
    | noFile =>
      refine .inr ⟨rfl, rfl, ?_⟩
      cases f with
      | none => exact .inl rfl
      | some t =>
        exfalso
        unfold getConfig at hg
        simp only at hg
        cases hp : cfgParse t with
        | ok s =>
          rw [hp] at hg
          by_cases hv : versioneerSec ∈ s.secs
          · exact (config_present hv).2 hg
          · simp only [config_absent hv] at hg
            cases hg
        | error e =>
          rw [hp] at hg
          unfold cfgParse at hp
          cases hl : cfgLines {} (pyLines t) with
          | ok s => rw [hl] at hp; simp only at hp; split_ifs at hp; cases hp; cases hg
          | error e' =>
            rw [hl] at hp; cases hp
            have : e = .parsing := cfgLines_error hl
            rw [this] at hg; cases hg
    | noSection =>
      refine .inr ⟨rfl, rfl, ?_⟩
      cases f with
      | none => exact .inl rfl
      | some t =>
        right
        unfold getConfig at hg
        simp only at hg
        cases hp : cfgParse t with
        | ok s =>
          rw [hp] at hg
          refine ⟨t, s, rfl, hp, fun hv => (config_present hv).1 hg⟩
        | error e =>
          exfalso
          rw [hp] at hg
          unfold cfgParse at hp
          cases hl : cfgLines {} (pyLines t) with
          | ok s => rw [hl] at hp; simp only at hp; split_ifs at hp; cases hp; cases hg
          | error e' =>
            rw [hl] at hp; cases hp
            have : e = .parsing := cfgLines_error hl
            rw [this] at hg; cases hg
    | noOption => exact .inl rfl
    | parsing => exact .inl rfl
    | interpolation => exact .inl rfl

/-- Then the file can be read, it has the section and its other sections, and every option of theirs has the value it had. -/
theorem C120_setup_keeps {f : Option Str} {s : CfgState} (h : cfgParse (f.getD []) = .ok s) (hv : lit "versioneer" ∉ s.secs) :
    ∃ s', (setupConfig f).1 = some (f.getD [] ++ sampleConfig) ∧ cfgParse (f.getD [] ++ sampleConfig) = .ok s' ∧
      s'.secs = lit "versioneer" :: s.secs ∧ ∀ sec opt, sec ≠ lit "versioneer" → s'.get sec opt = s.get sec opt := by
  obtain ⟨s', h1, h2, h3⟩ := sample_parse h hv
  refine ⟨s', ?_, h1, h2, fun sec opt hs => get_congr ?_ opt (h3 sec opt)⟩
  · cases f with
    | none => rfl
    | some t =>
      have : getConfig (some t) = .error .noSection := (getConfig_ok h).trans (config_absent hv)
      unfold setupConfig
      rw [this]; rfl
  · rw [h2, List.mem_cons]
    exact ⟨fun h => h.resolve_left hs, .inr⟩

/-- A second `setup` writes nothing. -/
theorem C120_setup_again (f : Option Str) : (setupConfig (setupConfig f).1).1 = (setupConfig f).1 := by
  rcases C120_setup_when f with h | ⟨h, _, hf⟩
  · rw [h]; exact h
  · rw [h]
    have hp : ∃ s, cfgParse (f.getD []) = .ok s ∧ versioneerSec ∉ s.secs := by
      rcases hf with rfl | ⟨t, s, rfl, ht, hv⟩
      · exact ⟨{}, rfl, by simp⟩
      · exact ⟨s, ht, hv⟩
    obtain ⟨s, hs, hv⟩ := hp
    obtain ⟨s', h1, h2, _⟩ := sample_parse hs hv
    have hg := getConfig_ok h1
    have hc := config_present (s := s') (by rw [h2]; exact List.mem_cons_self)
    unfold setupConfig
    rw [hg]
    cases hcc : s'.config with
    | ok c => rfl
    | error e =>
      rw [hcc] at hc
      cases e with
      | noFile => exact absurd rfl hc.2
      | noSection => exact absurd rfl hc.1
      | noOption => rfl
      | parsing => rfl
      | interpolation => rfl

/-- (4) A section written after anything that can be read, has no such section and no options under `[DEFAULT]`, is read as it was
written. -/
theorem C120_written {t : Str} {s : CfgState} (h : cfgParse t = .ok s) (hv : lit "versioneer" ∉ s.secs)
    (hn : ∀ e ∈ s.opts, e.sec ≠ lit "DEFAULT") {vcs style source build tag parent : Str} (h1 : PlainValue vcs) (h2 : PlainValue style)
    (h3 : PlainValue source) (h4 : PlainValue build) (h5 : PlainValue tag) (h6 : PlainValue parent) :
    getConfig (some (t ++ '\n' :: writtenSection vcs style source build tag parent)) = .ok {
      vcs := vcs
      style := style
      versionfileSource := some source
      versionfileBuild := some build
      tagPrefix := some (if tag = lit "''" ∨ tag = lit "\"\"" then [] else tag)
      parentdirPrefix := some parent
      verbose := none } := by
  exact written_config h hv hn h1 h2 h3 h4 h5 h6

/-! ## concrete cases -/

/-- a file with another section, cut off in its last line -/
def otherText : Str := lit "# tools\n[mypy]\nwarn = true\n  and more"

/-- how it is read -/
theorem other_parse : cfgParse otherText = .ok {
    secs := [lit "mypy"], opts := [⟨lit "mypy", lit "warn", [lit "true", lit "and more"]⟩], cur := some (lit "mypy"), cont := true } := by
  decide +kernel

example : (setupConfig (some otherText)).1 = some (otherText ++ sampleConfig) :=
  (C120_setup_keeps (f := some otherText) other_parse (by decide +kernel)).elim fun _ h => h.1

example : getConfig (some (otherText ++ '\n' :: writtenSection (lit "git") (lit "pep440") (lit "a/_version.py") (lit "b/_version.py") []
    (lit "a - ")) ) = .ok ⟨lit "git", lit "pep440", some (lit "a/_version.py"), some (lit "b/_version.py"), some [],
      some (lit "a -"), none⟩ := by decide +kernel

example : getConfig (some (otherText ++ '\n' :: writtenSection (lit "git") (lit "pep440") (lit "a/_version.py") (lit "b/_version.py") []
    (lit "a-"))) = .ok ⟨lit "git", lit "pep440", some (lit "a/_version.py"), some (lit "b/_version.py"), some [], some (lit "a-"), none⟩ := by
  have := C120_written other_parse (by decide +kernel) (by decide +kernel) (vcs := lit "git") (style := lit "pep440")
    (source := lit "a/_version.py") (build := lit "b/_version.py") (tag := []) (parent := lit "a-")
    ⟨by decide +kernel, by decide +kernel, by decide +kernel⟩ ⟨by decide +kernel, by decide +kernel, by decide +kernel⟩
    ⟨by decide +kernel, by decide +kernel, by decide +kernel⟩ ⟨by decide +kernel, by decide +kernel, by decide +kernel⟩
    ⟨by decide +kernel, by decide +kernel, by decide +kernel⟩ ⟨by decide +kernel, by decide +kernel, by decide +kernel⟩
  rw [this, if_neg (by decide +kernel)]

/-- two files that have the section in common -/
example : getConfig (some (lit "[a]\nx = 1\n" ++ lit "[versioneer]\n" ++ lit "VCS = git\ntag_prefix = v\n" ++ lit "[b]\nVCS = svn\n")) =
    getConfig (some ([] ++ lit "[versioneer]\n" ++ lit "VCS = git\ntag_prefix = v\n" ++ [])) := by
  have h : ∃ s, cfgParse (lit "[a]\nx = 1\n" ++ lit "[versioneer]\n" ++ lit "VCS = git\ntag_prefix = v\n" ++ lit "[b]\nVCS = svn\n") = .ok s ∧
      ∀ e ∈ s.opts, e.sec ≠ lit "DEFAULT" := by
    refine ⟨⟨[lit "b", lit "versioneer", lit "a"], [⟨lit "b", lit "vcs", [lit "svn"]⟩, ⟨lit "versioneer", lit "tag_prefix", [lit "v"]⟩,
      ⟨lit "versioneer", lit "vcs", [lit "git"]⟩, ⟨lit "a", lit "x", [lit "1"]⟩], some (lit "b"), true, 0, false⟩, ?_, ?_⟩ <;> decide +kernel
  have h' : ∃ s, cfgParse ([] ++ lit "[versioneer]\n" ++ lit "VCS = git\ntag_prefix = v\n" ++ []) = .ok s ∧
      ∀ e ∈ s.opts, e.sec ≠ lit "DEFAULT" := by
    refine ⟨⟨[lit "versioneer"], [⟨lit "versioneer", lit "tag_prefix", [lit "v"]⟩,
      ⟨lit "versioneer", lit "vcs", [lit "git"]⟩], some (lit "versioneer"), true, 0, false⟩, ?_, ?_⟩ <;> decide +kernel
  obtain ⟨s, hs, hn⟩ := h
  obtain ⟨s', hs', hn'⟩ := h'
  exact C120_sections (.inr ⟨lit "[a]\nx = 1", by decide +kernel⟩) (.inl rfl) (.inr ⟨lit "VCS = git\ntag_prefix = v", by decide +kernel⟩)
    (.inr ⟨lit "b", lit "VCS = svn\n", by decide +kernel, by decide +kernel, by decide +kernel, by decide +kernel⟩) (.inl rfl) hs hs' hn hn'

/-- an option under `[DEFAULT]` does matter -/
example : getConfig (some (lit "[DEFAULT]\ntag_prefix = w\n[versioneer]\nVCS = git\n")) ≠
    getConfig (some (lit "[versioneer]\nVCS = git\n")) := by decide +kernel

end TwoLayer.Version
