import Verif.Proofs.Release
import Verif.Props.Versioneer

/-!
# C119: what `sdist` and `build_py` do to the disk

`Disk`, `Act`, `makeTree`, `sdistActs`, `buildActs` model the commands (`Model/Release.lean`); `Outside`, `Placed.Real`, `crashed` are
in `Spec/Release.lean`.
-/

set_option linter.unusedSimpArgs false

namespace TwoLayer.Version

/-- **C119** (sources).  Whatever the disk, the files, the way they get into the tree (hard links or copies) and the record, and
wherever the command is killed or fails: every file outside the tree is there and has the text it had. -/
theorem C119_sources (d : Disk) (hv : d.Valid) (base : Path) (files : List Placed) (v : Path) (i : Info) (k : Nat) (p : Path)
    (hp : Outside base p) : (crashed k (makeTree base files v i) d).read p = d.read p :=
  ((makeTree_always (Kept.refl hv base) files v i).crashed k).read hv hp

/-- **C119** (the tree).  If the version file is among the files and the sources exist, the command succeeds; the version file of
the tree holds the record, every other file the text of its source, and nothing else in the tree has changed. -/
theorem C119_tree (d : Disk) (hv : d.Valid) (base : Path) (files : List Placed) (hr : ∀ f ∈ files, f.Real d base) (v : Path) (i : Info)
    (hv' : ∃ f ∈ files, f.rel = v) :
    ∃ d', execActs d (makeTree base files v i) = (d', true) ∧ d'.read (base ++ v) = some i.file ∧
      (∀ f ∈ files, f.rel ≠ v → (∀ g ∈ files, g.rel = f.rel → d.read g.src = d.read f.src) →
        d'.read (base ++ f.rel) = d.read f.src) ∧
      ∀ q, q ≠ base ++ v → (∀ f ∈ files, q ≠ base ++ f.rel) → d'.read q = d.read q := by
  obtain ⟨d', h1, -, h2⟩ := makeTree_does hv files hr v i hv'
  exact ⟨d', h1, h2⟩

/-- **C119** (no version file).  If the version file is neither among the files nor already in the tree, the command fails. -/
theorem C119_missing (d : Disk) (hv : d.Valid) (base : Path) (files : List Placed) (hr : ∀ f ∈ files, f.Real d base) (v : Path) (i : Info)
    (hv' : ∀ f ∈ files, f.rel ≠ v) (hm : d.read (base ++ v) = none) : (execActs d (makeTree base files v i)).2 = false :=
  makeTree_missing hv files hr v i hv' hm

/-- **C119** (again).  After a command that was killed anywhere, the same command makes the tree it would have made. -/
theorem C119_again (d : Disk) (hv : d.Valid) (base : Path) (files : List Placed) (hr : ∀ f ∈ files, f.Real d base) (v : Path) (i : Info)
    (hv' : ∃ f ∈ files, f.rel = v) (k : Nat) :
    ∃ d', execActs (crashed k (makeTree base files v i) d) (makeTree base files v i) = (d', true) ∧
      d'.read (base ++ v) = some i.file ∧
      (∀ f ∈ files, f.rel ≠ v → (∀ g ∈ files, g.rel = f.rel → d.read g.src = d.read f.src) →
        d'.read (base ++ f.rel) = d.read f.src) ∧
      ∀ p, Outside base p → d'.read p = d.read p := by
  have hk := (makeTree_always (Kept.refl hv base) files v i).crashed k
  have hs : ∀ f ∈ files, (crashed k (makeTree base files v i) d).read f.src = d.read f.src := fun f hf => hk.read hv (hr f hf).2
  obtain ⟨d', h1, hk', h2, h3, -⟩ := makeTree_does hk.valid files
    (fun f hf => ⟨by rw [hs f hf]; exact (hr f hf).1, (hr f hf).2⟩) v i hv'
  refine ⟨d', h1, h2, fun f hf hne hsame => ?_, fun p hp => (hk.trans hk').read hv hp⟩
  rw [h3 f hf hne fun g hg hgr => by rw [hs g hg, hs f hf]; exact hsame g hg hgr, hs f hf]

/-- **C119** (release chain on disk).  `setup.py sdist` in a source tree for which `setup.py` computes the record `i`, with the
version file among the files, whether they are linked or copied: it succeeds; the source tree still computes what it did; the
release tree and whatever it is unpacked to compute `i`, whatever git says there; and `setup.py build_py` there writes the version
file from which the package, if the texts in `i` are plain, reports `i`. -/
theorem C119_chain (d : Disk) (hv : d.Valid) (root base : Path) (files : List (Path × Bool))
    (hr : ∀ f ∈ files, d.read (root ++ f.1) ≠ none ∧ Outside base (root ++ f.1)) (hf : ∃ f ∈ files, f.1 = sourceVersionfile)
    (g : Git) (i : Info) (hi : d.versions root g = .ok i.dict) :
    ∃ d', execActs d (sdistActs root base files i) = (d', true) ∧ d'.versions root g = .ok i.dict ∧
      ∀ (d2 : Disk) (root2 base2 : Path) (modules : List Path), d2.Valid →
        (∀ f ∈ files, d2.read (root2 ++ f.1) = d'.read (base ++ f.1)) →
        (∀ m ∈ modules, d2.read (root2 ++ lit "src" :: m) ≠ none ∧ Outside base2 (root2 ++ lit "src" :: m)) →
        buildVersionfile ∈ modules →
        (∀ g2, d2.versions root2 g2 = .ok i.dict) ∧
        ∃ d3 text, execActs d2 (buildActs root2 base2 modules i) = (d3, true) ∧ d3.read (base2 ++ buildVersionfile) = some text ∧
          (i.Plain → importedVersions text = .ok i.dict) := by
  obtain ⟨d', h1, hk, h2, -, -⟩ := makeTree_does (base := base) hv (files.map fun f => ⟨root ++ f.1, f.1, f.2⟩)
    (by intro f hf; obtain ⟨f', hf', rfl⟩ := List.mem_map.mp hf; exact hr f' hf') sourceVersionfile i
    (by obtain ⟨f, hf1, hf2⟩ := hf; exact ⟨_, List.mem_map.mpr ⟨f, hf1, rfl⟩, hf2⟩)
  obtain ⟨f, hf1, hf2⟩ := hf
  have hout : Outside base (root ++ sourceVersionfile) := by rw [← hf2]; exact (hr f hf1).2
  refine ⟨d', h1, ?_, ?_⟩
  · rw [Disk.versions, hk.read hv hout]; exact hi
  · intro d2 root2 base2 modules hv2 hun hm hb
    have hfile : d2.read (root2 ++ sourceVersionfile) = some i.file := by
      rw [← h2, ← hf2]; exact hun f hf1
    refine ⟨fun g2 => ?_, ?_⟩
    · rw [Disk.versions, hfile]; exact C79_frozen i _ g2
    · obtain ⟨d3, e1, -, e2, -, -⟩ := makeTree_does (base := base2) hv2 (modules.map fun m => ⟨root2 ++ lit "src" :: m, m, false⟩)
        (by intro f hf; obtain ⟨m, hm', rfl⟩ := List.mem_map.mp hf; exact hm m hm') buildVersionfile i
        ⟨_, List.mem_map.mpr ⟨_, hb, rfl⟩, rfl⟩
      exact ⟨d3, i.file, e1, e2, fun h => C80_import_partial i h⟩

/-! ## A concrete case -/

namespace Ex

/-- a checkout in `/p` -/
def disk : Disk where
  names p := if p = lit "p" :: sourceVersionfile then some 0 else if p = [lit "p", lit "setup.py"] then some 1 else none
  data n := if n = 0 then sourceText "$Format:%d$" "$Format:%H$" "$Format:%ci$" else lit "import versioneer"
  next := 2

theorem disk_valid : disk.Valid := by
  intro p n h
  simp only [disk] at h ⊢
  split at h
  · cases h; omega
  · split at h
    · cases h; omega
    · cases h

/-- `sdist` in `/p` with hard links, killed after the version file of the tree has been opened: the version file of the tree is
empty and that of the checkout is not, though they were one file -/
example (i : Info) :
    let d := crashed 6 (sdistActs [lit "p"] [lit "p", lit "t"] [([lit "setup.py"], true), (sourceVersionfile, true)] i) disk
    d.read ([lit "p", lit "t"] ++ sourceVersionfile) = some [] ∧
    (crashed 4 (sdistActs [lit "p"] [lit "p", lit "t"] [([lit "setup.py"], true), (sourceVersionfile, true)] i) disk).names
      ([lit "p", lit "t"] ++ sourceVersionfile) = disk.names (lit "p" :: sourceVersionfile) ∧
    d.read ([lit "p"] ++ sourceVersionfile) = disk.read ([lit "p"] ++ sourceVersionfile) := by
  refine ⟨?_, ?_, ?_⟩
  · simp [crashed, sdistActs, makeTree, place, writeVersionFile, execActs, Act.exec, Disk.read, Disk.setName, Disk.setData, disk,
      sourceVersionfile, lit]
  · simp [crashed, sdistActs, makeTree, place, writeVersionFile, execActs, Act.exec, Disk.read, Disk.setName, Disk.setData, disk,
      sourceVersionfile, lit]
  · exact C119_sources disk disk_valid _ _ _ _ _ _ (by simp [Outside, sourceVersionfile, lit])

/-- the release chain from there -/
example : ∃ i : Info, i.version = "1.0-rc+3.g0a1b2c3.dirty".toList ∧ ∃ d',
    execActs disk (sdistActs [lit "p"] [lit "p", lit "t"] [([lit "setup.py"], true), (sourceVersionfile, true)] i) = (d', true) ∧
    d'.versions [lit "p"] git = .ok i.dict ∧ (∀ g2, d'.versions [lit "p", lit "t"] g2 = .ok i.dict) ∧
    ∃ d3 text, execActs d' (buildActs [lit "p", lit "t"] [lit "p", lit "t", lit "build"] [buildVersionfile] i) = (d3, true) ∧
      d3.read ([lit "p", lit "t", lit "build"] ++ buildVersionfile) = some text ∧ (i.Plain → importedVersions text = .ok i.dict) := by
  obtain ⟨i, h1, h2, -, -⟩ := C81_release_chain _ "1.0-rc".toList "0a1b2c3".toList _ _ _ _ 3 true [lit "p"] git source_unexpanded
    checkout (by decide) (by unfold Solid; decide) hash ⟨0, [], by decide +kernel⟩ (by decide) (by decide) (by decide) (by decide)
  have e : pep440 "1.0-rc".toList 3 "0a1b2c3".toList true = "1.0-rc+3.g0a1b2c3.dirty".toList := by decide +kernel
  rw [e] at h1
  have hd : disk.versions [lit "p"] git = .ok i.dict := h2
  have hr : ∀ f ∈ [([lit "setup.py"], true), (sourceVersionfile, true)],
      disk.read ([lit "p"] ++ f.1) ≠ none ∧ Outside [lit "p", lit "t"] ([lit "p"] ++ f.1) := by
    intro f hf
    simp only [List.mem_cons, List.not_mem_nil, or_false] at hf
    rcases hf with rfl | rfl <;> exact ⟨by simp [Disk.read, disk, sourceVersionfile, lit], by simp [Outside, sourceVersionfile, lit]⟩
  obtain ⟨d', e1, e2, e3⟩ := C119_chain disk disk_valid [lit "p"] [lit "p", lit "t"] _ hr
    ⟨(sourceVersionfile, true), by simp, rfl⟩ git i hd
  obtain ⟨d'', t1, k1, t2, -⟩ := makeTree_does (base := [lit "p", lit "t"]) disk_valid
    ([([lit "setup.py"], true), (sourceVersionfile, true)].map fun f => ⟨[lit "p"] ++ f.1, f.1, f.2⟩)
    (by intro f hf; obtain ⟨f', hf', rfl⟩ := List.mem_map.mp hf; exact hr f' hf') sourceVersionfile i
    ⟨⟨[lit "p"] ++ sourceVersionfile, sourceVersionfile, true⟩, by simp, rfl⟩
  have hd' : d' = d'' := (Prod.mk.inj (e1.symm.trans t1)).1
  subst hd'
  refine ⟨i, h1, d', e1, e2, ?_⟩
  exact e3 d' [lit "p", lit "t"] [lit "p", lit "t", lit "build"] [buildVersionfile] k1.valid (fun _ _ => rfl)
    (by
      intro m hm
      rw [List.mem_singleton.mp hm]
      refine ⟨?_, by simp [Outside, buildVersionfile, lit]⟩
      have : [lit "p", lit "t"] ++ lit "src" :: buildVersionfile = [lit "p", lit "t"] ++ sourceVersionfile := rfl
      rw [this, t2]; simp)
    (by simp)

end Ex

end TwoLayer.Version
