import Verif.Model.Versioneer
import Verif.Model.Installer

/-!
# `setup.py sdist` and `setup.py build_py` on a disk (`versioneer.py:1218-1226, 1547-1560, 1628-1648`)

A disk has names (paths) and files; two names may be the same file (hard links).  The commands make a tree of copies or hard links
of source files and then replace the version file in it.

Simplifications: directories exist where needed; the only failure is that of `os.unlink` on a missing name; a write puts all
its text down at once.  Outside `/repo`, assumed of setuptools: `make_release_tree` and `build_py.run` do, file by file, what `place`
says, and nothing else to names that exist.
-/

namespace TwoLayer.Version

/-- path components, outermost first; no code: the file system -/
abbrev Path := List Str

/-- no code: the file system; `next` is the number of the next new file -/
structure Disk where
  names : Path → Option Nat
  data : Nat → Str
  next : Nat

/-- the text under a name, `versioneer.py:1204-1205` -/
def Disk.read (d : Disk) (p : Path) : Option Str := (d.names p).map d.data

/-- no code: the file system -/
def Disk.setName (d : Disk) (p : Path) (n : Option Nat) : Disk := { d with names := fun q => if q = p then n else d.names q }

/-- no code: the file system -/
def Disk.setData (d : Disk) (n : Nat) (s : Str) : Disk := { d with data := fun k => if k = n then s else d.data k }

/-- what the commands do to a disk -/
inductive Act where
  /-- `os.link`, `_sdist.make_release_tree` at `versioneer.py:1640` -/
  | link (src dst : Path)
  /-- `os.unlink` of a name that may not exist, `_sdist.make_release_tree` at `versioneer.py:1640`, `_build_py.run` at
  `versioneer.py:1552` -/
  | remove (p : Path)
  /-- `os.unlink`, `versioneer.py:1220` -/
  | unlink (p : Path)
  /-- `open(p, "w")`, `versioneer.py:1223`: empties the file if there is one -/
  | create (p : Path)
  /-- writing the text of `src`, `_sdist.make_release_tree` at `versioneer.py:1640`, `_build_py.run` at `versioneer.py:1552` -/
  | copy (src dst : Path)
  /-- `f.write(...)`, `versioneer.py:1224` -/
  | write (p : Path) (s : Str)

/-- `none`: `FileNotFoundError` (`versioneer.py:1220`); the others do nothing if their names do not exist -/
def Act.exec (d : Disk) : Act → Option Disk
  | .link src dst => some (match d.names src with
    | some n => d.setName dst (some n)
    | none => d)
  | .remove p => some (d.setName p none)
  | .unlink p => match d.names p with
    | some _ => some (d.setName p none)
    | none => none
  | .create p => some (match d.names p with
    | some n => d.setData n []
    | none => { (d.setName p (some d.next)).setData d.next [] with next := d.next + 1 })
  | .copy src dst => some (match d.names src, d.names dst with
    | some n, some k => d.setData k (d.data n)
    | _, _ => d)
  | .write p s => some (match d.names p with
    | some n => d.setData n s
    | none => d)

/-- run until one fails; `false`: one has failed.  No code: sequencing -/
def execActs (d : Disk) : List Act → Disk × Bool
  | [] => (d, true)
  | a :: rest => match a.exec d with
    | some d' => execActs d' rest
    | none => (d, false)

/-- a file for the tree: where it comes from, where in the tree it goes, and whether as a hard link; the argument `files`
at `versioneer.py:1637`, and what `_build_py.run` finds at `versioneer.py:1552` -/
structure Placed where
  src : Path
  rel : Path
  hard : Bool

/-- `_sdist.make_release_tree` (`versioneer.py:1640`) and `_build_py.run` (`versioneer.py:1552`), one file: a hard link, or, where
there are none, a copy.  A file that does not exist is skipped with a warning (it does not get here). -/
def place (base : Path) (f : Placed) : List Act :=
  if f.hard then [.remove (base ++ f.rel), .link f.src (base ++ f.rel)]
  else [.remove (base ++ f.rel), .create (base ++ f.rel), .copy f.src (base ++ f.rel)]

/-- `write_to_version_file`, `versioneer.py:1218-1226` -/
def writeVersionFile (p : Path) (i : Info) : List Act := [.unlink p, .create p, .write p i.file]

/-- `cmd_sdist.make_release_tree`, `versioneer.py:1637-1647`, and `cmd_build_py.run` after its `get_versions()`,
`versioneer.py:1551-1559`: `i` is what `get_versions()` returned before (`versioneer.py:1551, 1630`), `versionfile` is
`cfg.versionfile_source` or `cfg.versionfile_build` -/
def makeTree (base : Path) (files : List Placed) (versionfile : Path) (i : Info) : List Act :=
  files.flatMap (place base) ++ writeVersionFile (base ++ versionfile) i

/-- `versionfile_source`, `setup.cfg:48` -/
def sourceVersionfile : Path := [lit "src", lit "openscm_twolayermodel", lit "_version.py"]

/-- `versionfile_build`, `setup.cfg:49` -/
def buildVersionfile : Path := [lit "openscm_twolayermodel", lit "_version.py"]

/-- `setup.py sdist` in `root`, `versioneer.py:1628-1648` -/
def sdistActs (root base : Path) (files : List (Path × Bool)) (i : Info) : List Act :=
  makeTree base (files.map fun f => ⟨root ++ f.1, f.1, f.2⟩) sourceVersionfile i

/-- `setup.py build_py` in `root`, `versioneer.py:1547-1560`; modules are copied from `src` (`package_dir` in `setup.py`) -/
def buildActs (root base : Path) (modules : List Path) (i : Info) : List Act :=
  makeTree base (modules.map fun m => ⟨root ++ lit "src" :: m, m, false⟩) buildVersionfile i

/-- `get_versions()` of `setup.py` on a disk, `versioneer.py:1402-1475` -/
def Disk.versions (d : Disk) (root : Path) (g : Git) : Except VErr Dict :=
  setupVersions (d.read (root ++ sourceVersionfile)) root.reverse g

end TwoLayer.Version
