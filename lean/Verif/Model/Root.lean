import Verif.Model.Config
import Verif.Model.Release

/-!
# Which project `setup.py` reports the version of (`versioneer.py:296-332, 1398-1480`)

Simplifications: paths are lists of components and `os.path.realpath` has been applied to the working directory and to `sys.argv[0]`
(no symbolic links, `.` or `..`); `versionfile_source` is cut at `/`; reading a file that exists succeeds; what `verbose` prints is left out.
-/

namespace TwoLayer.Version

/-- What `get_versions` can look at, `versioneer.py:1402-1475`: the texts of files, and what git answers in a directory for a tag prefix
(it is part of the `git describe` command, `versioneer.py:1053-1056`). -/
structure World where
  file : Path → Option Str
  git : Path → Str → Git

/-- exceptions of `versioneer.get_versions`, `versioneer.py:1402-1475` -/
inductive RootErr where
  /-- `VersioneerBadRootError`, `versioneer.py:1398-1399` -/
  | badRoot
  /-- from `get_config_from_root`, `versioneer.py:1412` -/
  | config (e : CfgErr)
  /-- `AssertionError`: unrecognized VCS, `versioneer.py:1416` -/
  | unknownVcs
  /-- `AssertionError`: please set versionfile_source, `versioneer.py:1418-1419` -/
  | noVersionfile
  /-- `AssertionError`: please set tag_prefix, `versioneer.py:1420` -/
  | noTagPrefix
  /-- from the attempts to find a version, `versioneer.py:1430-1468` -/
  | version (e : VErr)
deriving DecidableEq

/-- `os.path.exists(setup_py) or os.path.exists(versioneer_py)`, `versioneer.py:303-305, 308-310` -/
def World.isRoot (w : World) (d : Path) : Bool :=
  (w.file (d ++ [lit "setup.py"])).isSome || (w.file (d ++ [lit "versioneer.py"])).isSome

/-- `get_root`, `versioneer.py:296-332`; `cwd` is the working directory, `script` is `sys.argv[0]` -/
def World.getRoot (w : World) (cwd script : Path) : Except RootErr Path :=
  if w.isRoot cwd then .ok cwd
  else if w.isRoot script.dropLast then .ok script.dropLast
  else .error .badRoot

/-- `os.path.join(root, name)`, `versioneer.py:1422` -/
def joinPath (root : Path) (name : Str) : Path :=
  if name.head? = some '/' then (name.splitOn '/').tail else root ++ name.splitOn '/'

/-- `versioneer.py:1430-1475`: the attempts, with the settings of a configuration; `source` is the text of the version file -/
def attempts (source : Option Str) (style tag : Str) (parent : Option Str) (root : Path) (g : Git) : Except VErr Dict :=
  orElseD ((versionsFromFileKeywords tag (getKeywords source)).map Info.dict) fun _ =>
    orElseD (versionsFromFile source) fun _ =>
      orElseD ((do let p ← gitPieces tag g; render p (String.ofList style)).map Info.dict) fun _ =>
        orElseD (if parent.getD [] = [] then .error .notThisMethod
          else (versionsFromParentdir (parent.getD []) 3 root.reverse).map Info.dict) fun _ =>
            .ok (Info.dict ⟨lit "0+unknown", none, none, some (lit "unable to compute version"), none⟩)

/-- `get_versions` of `versioneer.py`, `versioneer.py:1402-1475`; `HANDLERS` has the one key `git`, `versioneer.py:944-1028` -/
def World.versions (w : World) (cwd script : Path) : Except RootErr Dict :=
  match w.getRoot cwd script with
  | .error e => .error e
  | .ok root =>
    match getConfig (w.file (root ++ [lit "setup.cfg"])) with
    | .error e => .error (.config e)
    | .ok c =>
      if c.vcs ≠ lit "git" then .error .unknownVcs
      else match c.versionfileSource with
      | none => .error .noVersionfile
      | some source =>
        match c.tagPrefix with
        | none => .error .noTagPrefix
        | some tag =>
          match attempts (w.file (joinPath root source)) c.style tag c.parentdirPrefix root (w.git root tag) with
          | .error e => .error (.version e)
          | .ok d => .ok d

/-- `get_version`, `versioneer.py:1478-1480` -/
def World.version (w : World) (cwd script : Path) : Except RootErr JVal :=
  match w.versions cwd script with
  | .error e => .error e
  | .ok d =>
    match versionOf d with
    | .error e => .error (.version e)
    | .ok v => .ok v

end TwoLayer.Version
