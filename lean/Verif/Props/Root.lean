import Verif.Props.Config
import Verif.Props.Release
import Verif.Model.Root

/-!
# C122: which project `setup.py` reports the version of
-/

set_option linter.unusedSimpArgs false

namespace TwoLayer.Version

/-- there is a `setup.py` or a `versioneer.py` in the directory -/
def HasSetup (w : World) (d : Path) : Prop :=
  w.file (d ++ ["setup.py".toList]) ≠ none ∨ w.file (d ++ ["versioneer.py".toList]) ≠ none

/-- the directory is a checkout or release of this repository: it has a `setup.py` or a `versioneer.py`, and its `setup.cfg` -/
structure ThisProject (w : World) (d : Path) : Prop where
  setup : HasSetup w d
  cfg : w.file (d ++ ["setup.cfg".toList]) = some setupCfg

/-- the text of `src/openscm_twolayermodel/_version.py` of a project -/
def World.versionFile (w : World) (d : Path) : Option Str :=
  w.file (d ++ ["src".toList, "openscm_twolayermodel".toList, "_version.py".toList])

theorem isRoot_iff (w : World) (d : Path) : w.isRoot d = true ↔ HasSetup w d := by
  rw [World.isRoot, Bool.or_eq_true]
  simp only [Option.isSome_iff_ne_none]
  exact Iff.rfl

theorem attempts_here (f : Option Str) (root : Path) (g : Git) :
    attempts f (lit "pep440") (lit "v") (some (lit "openscm_twolayermodel-")) root g = setupVersions f root.reverse g := by
  have : String.ofList (lit "pep440") = "pep440" := by decide +kernel
  rw [attempts, this]
  rfl

theorem join_here (root : Path) : joinPath root versionfileSource = root ++ sourceVersionfile := by
  have h1 : ¬ versionfileSource.head? = some '/' := by decide +kernel
  have h2 : versionfileSource.splitOn '/' = sourceVersionfile := by decide +kernel
  rw [joinPath, if_neg h1, h2]

/-- what comes of a project whose root is found -/
theorem versions_root {w : World} {cwd script d : Path} (hr : w.getRoot cwd script = .ok d)
    (h : w.file (d ++ ["setup.cfg".toList]) = some setupCfg) :
    w.versions cwd script = (match setupVersions (w.versionFile d) d.reverse (w.git d "v".toList) with
      | .error e => .error (.version e)
      | .ok x => .ok x) := by
  have hc : getConfig (w.file (d ++ [lit "setup.cfg"])) = _ := (congrArg getConfig h).trans C120_repository
  unfold World.versions
  rw [hr]
  simp only [hc, ne_eq, not_true_eq_false, if_false, join_here, attempts_here]
  rfl

/-- (1) In the directory of this project, `setup.py` reports what C78, C79 and C81 are about, whatever `sys.argv[0]` is. -/
theorem C122_inside {w : World} {d : Path} (h : ThisProject w d) (script : Path) (x : Dict) :
    w.versions d script = .ok x ↔ setupVersions (w.versionFile d) d.reverse (w.git d "v".toList) = .ok x := by
  have hr : w.getRoot d script = .ok d := by rw [World.getRoot, if_pos ((isRoot_iff w d).2 h.setup)]
  rw [versions_root hr h.cfg]
  cases setupVersions (w.versionFile d) d.reverse (w.git d "v".toList) <;> simp

/-- (2) `python path/to/setup.py` from a directory without `setup.py` and `versioneer.py` reports what it reports from the
directory of the project. -/
theorem C122_from_elsewhere {w : World} {d : Path} (h : HasSetup w d) {cwd : Path} (hc : ¬ HasSetup w cwd) (name : Str)
    (script : Path) : w.versions cwd (d ++ [name]) = w.versions d script ∧ w.version cwd (d ++ [name]) = w.version d script := by
  have hr : w.getRoot cwd (d ++ [name]) = w.getRoot d script := by
    rw [World.getRoot, if_neg (fun e => hc ((isRoot_iff w cwd).1 e)), List.dropLast_concat,
      World.getRoot, if_pos ((isRoot_iff w d).2 h), if_pos ((isRoot_iff w d).2 h)]
  have hv : w.versions cwd (d ++ [name]) = w.versions d script := by rw [World.versions, World.versions, hr]
  exact ⟨hv, by rw [World.version, World.version, hv]⟩

/-- (3) A `setup.py` in the working directory comes first: from the directory of another project, `python path/to/setup.py`
reports the version of that other project. -/
theorem C122_other_project {w : World} {cwd : Path} (h : HasSetup w cwd) (script script' : Path) :
    w.versions cwd script = w.versions cwd script' := by
  have hr : w.getRoot cwd script = w.getRoot cwd script' := by
    rw [World.getRoot, if_pos ((isRoot_iff w cwd).2 h), World.getRoot, if_pos ((isRoot_iff w cwd).2 h)]
  rw [World.versions, World.versions, hr]

/-- (4) It is refused as "unable to run the project root directory" exactly if neither directory has one of the two files. -/
theorem C122_bad_root (w : World) (cwd script : Path) :
    w.versions cwd script = .error .badRoot ↔ ¬ HasSetup w cwd ∧ ¬ HasSetup w script.dropLast := by
  rw [← isRoot_iff, ← isRoot_iff]
  constructor
  · intro h
    by_contra hn
    have hr : ∃ r, w.getRoot cwd script = .ok r := by
      rw [World.getRoot]
      split
      · exact ⟨_, rfl⟩
      split
      · exact ⟨_, rfl⟩
      · exact absurd ⟨by assumption, by assumption⟩ hn
    obtain ⟨r, hr⟩ := hr
    rw [World.versions, hr] at h
    simp only at h
    repeat' split at h
    all_goals cases h
  · rintro ⟨h1, h2⟩
    rw [World.versions, World.getRoot, if_neg h1, if_neg h2]

/-- (5) The answer depends on this project only: on `setup.cfg`, the version file, git in its directory, and the name of the
directory and of the two above it. -/
theorem C122_local {w w' : World} {d d' : Path} (h : ThisProject w d) (h' : ThisProject w' d')
    (hf : w.versionFile d = w'.versionFile d') (hg : w.git d "v".toList = w'.git d' "v".toList)
    (hd : d.reverse.take 3 = d'.reverse.take 3) (script script' : Path) : w.versions d script = w'.versions d' script' := by
  have hr : w.getRoot d script = .ok d := by rw [World.getRoot, if_pos ((isRoot_iff w d).2 h.setup)]
  have hr' : w'.getRoot d' script' = .ok d' := by rw [World.getRoot, if_pos ((isRoot_iff w' d').2 h'.setup)]
  have hp : ∀ (n : Nat) (a b : List Str), a.take n = b.take n →
      versionsFromParentdir parentdirPrefix n a = versionsFromParentdir parentdirPrefix n b := by
    intro n
    induction n with
    | zero => intro a b _; rfl
    | succ n ih =>
      intro a b hab
      have h1 : a.headD [] = b.headD [] := by cases a <;> cases b <;> simp_all
      have h2 : a.tail.take n = b.tail.take n := by cases a <;> cases b <;> simp_all
      rw [versionsFromParentdir, versionsFromParentdir, h1, ih _ _ h2]
  rw [versions_root hr h.cfg, versions_root hr' h'.cfg, hf, hg, setupVersions, setupVersions, hp 3 _ _ hd]

/-- (6) In an unpacked release whose version file is that of a record, any such command reports the record, whatever git says and
wherever it was unpacked. -/
theorem C122_release {w : World} {d : Path} (h : ThisProject w d) (i : Info) (hf : w.versionFile d = some i.file) {cwd : Path}
    (hc : cwd = d ∨ ¬ HasSetup w cwd) (name : Str) :
    w.versions cwd (d ++ [name]) = .ok i.dict ∧ w.version cwd (d ++ [name]) = .ok (.str i.version) := by
  have h1 : ∀ script, w.versions d script = .ok i.dict := fun script =>
    (C122_inside h script _).2 (by rw [hf]; exact C79_frozen i _ _)
  have h2 : w.versions cwd (d ++ [name]) = .ok i.dict := by
    rcases hc with rfl | hc
    · exact h1 _
    · rw [(C122_from_elsewhere h.setup hc name []).1]; exact h1 _
  refine ⟨h2, ?_⟩
  rw [World.version, h2]
  rfl

/-- (7) With a `setup.cfg` that can be read, the settings that are demanded are exactly `VCS = git`, `versionfile_source` and
`tag_prefix`: any other failure comes from the attempts to find a version. -/
theorem C122_settings {w : World} {d : Path} (h : HasSetup w d) {c : VConfig}
    (hc : getConfig (w.file (d ++ ["setup.cfg".toList])) = .ok c) (script : Path) :
    ((c.vcs = "git".toList ∧ c.versionfileSource ≠ none ∧ c.tagPrefix ≠ none) ↔
      (∃ x, w.versions d script = .ok x) ∨ ∃ e, w.versions d script = .error (.version e)) := by
  have hr : w.getRoot d script = .ok d := by rw [World.getRoot, if_pos ((isRoot_iff w d).2 h)]
  have hc' : getConfig (w.file (d ++ [lit "setup.cfg"])) = .ok c := hc
  rw [World.versions, hr]
  simp only [hc']
  by_cases hv : c.vcs = lit "git"
  · have hv' : c.vcs = "git".toList := hv
    rw [if_neg (fun x => x hv)]
    cases c.versionfileSource with
    | none => simp
    | some s =>
      cases c.tagPrefix with
      | none => simp
      | some t =>
        simp only [hv', ne_eq, reduceCtorEq, not_false_eq_true, and_self, true_iff]
        cases attempts (w.file (joinPath d s)) c.style t c.parentdirPrefix d (w.git d t) with
        | ok x => exact .inl ⟨_, rfl⟩
        | error e => exact .inr ⟨_, rfl⟩
  · have hv' : ¬ c.vcs = "git".toList := hv
    rw [if_pos hv]
    constructor
    · exact fun x => absurd x.1 hv'
    · rintro (⟨x, hx⟩ | ⟨e, hx⟩) <;> cases hx

/-- (8) `setup.py sdist` in a source tree of this project, with its `setup.py`, `setup.cfg` and version file among the files: in the
tree it makes, and wherever the files are unpacked, `setup.py` reports the record that was written, whatever git says there. -/
theorem C122_sdist (d : Disk) (hv : d.Valid) (root base : Path) (files : List (Path × Bool))
    (hr : ∀ f ∈ files, d.read (root ++ f.1) ≠ none ∧ Outside base (root ++ f.1))
    (hf : ∀ n ∈ [["setup.py".toList], ["setup.cfg".toList], sourceVersionfile], ∃ f ∈ files, f.1 = n)
    (hc : d.read (root ++ ["setup.cfg".toList]) = some setupCfg) (i : Info) :
    ∃ d', execActs d (sdistActs root base files i) = (d', true) ∧
      ∀ (w : World) (d2 : Path), (∀ f ∈ files, w.file (d2 ++ f.1) = d'.read (base ++ f.1)) →
        ∀ cwd name, cwd = d2 ∨ ¬ HasSetup w cwd →
          w.versions cwd (d2 ++ [name]) = .ok i.dict ∧ w.version cwd (d2 ++ [name]) = .ok (.str i.version) := by
  obtain ⟨d', h1, h2, h3, -⟩ := C119_tree d hv base (files.map fun f => ⟨root ++ f.1, f.1, f.2⟩)
    (by intro f hf; obtain ⟨f', hf', rfl⟩ := List.mem_map.mp hf; exact hr f' hf') sourceVersionfile i
    (by
      obtain ⟨f, hf1, hf2⟩ := hf sourceVersionfile (by simp)
      exact ⟨_, List.mem_map.mpr ⟨f, hf1, rfl⟩, hf2⟩)
  have copied : ∀ f ∈ files, f.1 ≠ sourceVersionfile → d'.read (base ++ f.1) = d.read (root ++ f.1) := fun f hf hne =>
    h3 _ (List.mem_map.mpr ⟨f, hf, rfl⟩) hne fun g hg hgr => by
      obtain ⟨g', -, rfl⟩ := List.mem_map.mp hg
      exact congrArg (fun x => d.read (root ++ x)) hgr
  refine ⟨d', h1, fun w d2 hw cwd name hcwd => ?_⟩
  obtain ⟨f1, m1, e1⟩ := hf ["setup.py".toList] (by simp)
  obtain ⟨f2, m2, e2⟩ := hf ["setup.cfg".toList] (by simp)
  obtain ⟨f3, m3, e3⟩ := hf sourceVersionfile (by simp)
  have k1 := hw f1 m1
  have k2 := hw f2 m2
  have k3 := hw f3 m3
  rw [copied f1 m1 (by rw [e1]; simp [sourceVersionfile])] at k1
  rw [copied f2 m2 (by rw [e2]; simp [sourceVersionfile])] at k2
  have n1 := (hr f1 m1).1
  rw [← k1, e1] at n1
  rw [e2, hc] at k2
  rw [e3, h2] at k3
  exact C122_release ⟨.inl n1, k2⟩ i k3 hcwd name

/-! ## Concrete cases -/

/-- a release unpacked at `/r`; at `/o` the files of somebody else's project -/
def sampleWorld (i : Info) (other : Str → Option Str) : World where
  file
    | [['r'], n] => if n = lit "setup.py" then some [] else if n = lit "setup.cfg" then some setupCfg else none
    | [['r'], a, b, c] => if [a, b, c] = sourceVersionfile then some i.file else none
    | [['o'], n] => other n
    | _ => none
  git _ _ := ⟨[], [], [], [], []⟩

/-- a project with a `setup.py` and without a `setup.cfg` -/
def otherProject (n : Str) : Option Str := if n = lit "setup.py" then some [] else none

theorem sample_project (i : Info) (other : Str → Option Str) : ThisProject (sampleWorld i other) [['r']] :=
  ⟨.inl (by simp [sampleWorld, lit]), by simp [sampleWorld, lit]⟩

theorem sample_file (i : Info) (other : Str → Option Str) : (sampleWorld i other).versionFile [['r']] = some i.file := by
  simp [sampleWorld, World.versionFile, sourceVersionfile, lit]

theorem sample_outside (i : Info) (other : Str → Option Str) : ¬ HasSetup (sampleWorld i other) [] := by
  simp [HasSetup, sampleWorld]

/-- From `/` the release reports its version (1, 2, 6). -/
example (i : Info) : (sampleWorld i otherProject).version [] ([['r']] ++ [lit "setup.py"]) = .ok (.str i.version) :=
  (C122_release (sample_project i _) i (sample_file i _) (.inr (sample_outside i _)) _).2

/-- From `/o` the same command stops because there is no `/o/setup.cfg` (3). -/
example (i : Info) : HasSetup (sampleWorld i otherProject) [['o']] ∧
    (sampleWorld i otherProject).versions [['o']] ([['r']] ++ [lit "setup.py"]) = .error (.config .noFile) := by
  constructor
  · exact .inl (by simp [sampleWorld, otherProject, lit])
  · simp [World.versions, World.getRoot, World.isRoot, sampleWorld, otherProject, lit, getConfig]

/-- From `/`, `python /setup.py` finds nothing (4). -/
example (i : Info) : (sampleWorld i otherProject).versions [] [lit "setup.py"] = .error .badRoot :=
  (C122_bad_root _ _ _).2 ⟨sample_outside i _, sample_outside i _⟩

/-- Whatever files the other project has, the release reports the same (5). -/
example (i : Info) (other : Str → Option Str) (s s' : Path) :
    (sampleWorld i other).versions [['r']] s = (sampleWorld i otherProject).versions [['r']] s' :=
  C122_local (sample_project i _) (sample_project i _) (by rw [sample_file, sample_file])
    (by simp only [sampleWorld]) rfl s s'

/-- A `setup.cfg` that names another VCS is refused (7). -/
example (i : Info) (cfg : Str) (c : VConfig) (hc : getConfig (some cfg) = .ok c) (hv : c.vcs ≠ "git".toList) (s : Path) :
    ∀ x, (sampleWorld i fun n => if n = lit "setup.py" then some [] else if n = lit "setup.cfg" then some cfg else none).versions
      [['o']] s ≠ .ok x := by
  intro x hx
  refine hv ((C122_settings (c := c) (.inl ?_) ?_ s).2 (.inl ⟨x, hx⟩)).1
  · simp [sampleWorld, lit]
  · have h : (lit "setup.cfg") ≠ lit "setup.py" := by decide
    show getConfig (if lit "setup.cfg" = lit "setup.py" then some [] else if lit "setup.cfg" = lit "setup.cfg" then some cfg else none) = _
    rw [if_neg h, if_pos rfl]
    exact hc

/-- … and there is such a file. -/
example : ∃ c, getConfig (some (lit "[versioneer]\nVCS = hg\n")) = .ok c ∧ c.vcs ≠ "git".toList :=
  ⟨⟨lit "hg", [], none, none, none, none, none⟩, by decide +kernel, by decide⟩

/-- a checkout at `/p` -/
def sampleDisk (text : Str) : Disk where
  names p := if p = lit "p" :: sourceVersionfile then some 0 else if p = [lit "p", lit "setup.py"] then some 1
    else if p = [lit "p", lit "setup.cfg"] then some 2 else none
  data n := if n = 0 then text else if n = 1 then lit "import versioneer" else setupCfg
  next := 3

theorem sampleDisk_valid (text : Str) : (sampleDisk text).Valid := by
  intro p n h
  simp only [sampleDisk] at h ⊢
  split at h
  · cases h; omega
  · split at h
    · cases h; omega
    · split at h
      · cases h; omega
      · cases h

/-- (8) for it, the files being linked, and the tree looked at where it is -/
example (text : Str) (i : Info) : ∃ d', execActs (sampleDisk text) (sdistActs [lit "p"] [lit "t"]
      [([lit "setup.py"], true), ([lit "setup.cfg"], true), (sourceVersionfile, true)] i) = (d', true) ∧
    ∀ git, World.version ⟨d'.read, git⟩ [lit "t"] [lit "t", lit "setup.py"] = .ok (.str i.version) := by
  obtain ⟨d', h1, h2⟩ := C122_sdist (sampleDisk text) (sampleDisk_valid text) [lit "p"] [lit "t"]
    [([lit "setup.py"], true), ([lit "setup.cfg"], true), (sourceVersionfile, true)]
    (by
      intro f hf
      simp only [List.mem_cons, List.not_mem_nil, or_false] at hf
      rcases hf with rfl | rfl | rfl <;>
        exact ⟨by simp [Disk.read, sampleDisk, sourceVersionfile, lit], by simp [Outside, sourceVersionfile, lit]⟩)
    (by
      intro n hn
      simp only [List.mem_cons, List.not_mem_nil, or_false] at hn
      rcases hn with rfl | rfl | rfl
      · exact ⟨([lit "setup.py"], true), by simp, rfl⟩
      · exact ⟨([lit "setup.cfg"], true), by simp, rfl⟩
      · exact ⟨(sourceVersionfile, true), by simp, rfl⟩)
    (by simp [Disk.read, sampleDisk, sourceVersionfile, lit]) i
  exact ⟨d', h1, fun git => (h2 ⟨d'.read, git⟩ [lit "t"] (fun _ _ => rfl) [lit "t"] (lit "setup.py") (.inl rfl)).2⟩

end TwoLayer.Version
