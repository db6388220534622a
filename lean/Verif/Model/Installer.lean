import Verif.Model.Version

/-!
# `python versioneer.py setup` (`versioneer.py:1120-1155,1690-1822`)

A file is the list of its characters after universal newline translation, `none` if it does not exist.  Files that exist
can be read and written (simplification).  The configuration is that of `setup.cfg:45-51`.
-/

namespace TwoLayer.Version

/-- `f.readlines()`: each line keeps its newline, `versioneer.py:1143, 1749, 1785` -/
def pyLines : Str → List Str
  | [] => []
  | c :: s =>
    if c = '\n' then [c] :: pyLines s
    else match pyLines s with
      | [] => [[c]]
      | l :: ls => (c :: l) :: ls

/-- `s.split()` (white space restricted to ASCII), `versioneer.py:1145, 1750` -/
def words (s : Str) : List Str := (s.splitOnP isSpace).filter (fun w => !w.isEmpty)

/-- `x in s` for strings, `versioneer.py:1786-1797` -/
def contains (x : Str) : Str → Bool
  | [] => x.isEmpty
  | c :: s => x.isPrefixOf (c :: s) || contains x s

/-- `open(f, "a").write(t)`, `versioneer.py:1151-1153, 1732-1733, 1760-1761, 1767-1768` -/
def appendFile (f : Option Str) (t : Str) : Option Str := some (f.getD [] ++ t)

/-- `cfg.versionfile_source`, `setup.cfg:48` -/
def versionfileSource : Str := lit "src/openscm_twolayermodel/_version.py"

/-- `INIT_PY_SNIPPET`, `versioneer.py:1690-1694` -/
def initPySnippet : Str := lit "
from ._version import get_versions
__version__ = get_versions()['version']
del get_versions
"

/-- `simple_includes`, `versioneer.py:1744-1753` (a Python set) -/
def simpleIncludes (manifest : Option Str) : List Str :=
  ((pyLines (manifest.getD [])).filter fun l => (lit "include ").isPrefixOf l).flatMap fun l => (words l).drop 1

/-- the changes to `MANIFEST.in`, `versioneer.py:1758-1770` -/
def setupManifest (m : Option Str) : Option Str :=
  let inc := simpleIncludes m
  let m' := if lit "versioneer.py" ∈ inc then m else appendFile m (lit "include versioneer.py\n")
  if versionfileSource ∈ inc then m' else appendFile m' (lit "include " ++ versionfileSource ++ lit "\n")

/-- the changes to `__init__.py`, `versioneer.py:1722-1738` -/
def setupInit : Option Str → Option Str
  | none => none
  | some old => if contains initPySnippet old then some old else appendFile (some old) initPySnippet

/-- the test of one line of `.gitattributes`, `versioneer.py:1144-1146` -/
def marksExport (l : Str) : Bool :=
  versionfileSource.isPrefixOf (strip l) && decide (lit "export-subst" ∈ (words (strip l)).drop 1)

/-- the changes to `.gitattributes`, `versioneer.py:1140-1153` -/
def setupAttributes (f : Option Str) : Option Str :=
  if (pyLines (f.getD [])).any marksExport then f else appendFile f (versionfileSource ++ lit " export-subst\n")

/-- The files `do_setup` touches. (`versioneer.py:1697-1776`) -/
structure Tree where
  versionFile : Option Str
  initPy : Option Str
  manifest : Option Str
  attributes : Option Str
deriving DecidableEq

/-- `do_setup`, `versioneer.py:1697-1776`, with the configuration present; `long` is the text of the version file
(`LONG_VERSION_PY["git"] % …`).  The `git add` at the end is not modelled. -/
def doSetup (long : Str) (t : Tree) : Tree where
  versionFile := some long
  initPy := setupInit t.initPy
  manifest := setupManifest t.manifest
  attributes := setupAttributes t.attributes

/-- the loop of `scan_setup_py`, `versioneer.py:1784-1796`: is `x` in some line -/
def inSomeLine (x : Str) (setupPy : Str) : Bool := (pyLines setupPy).any (contains x)

/-- `scan_setup_py`, `versioneer.py:1779-1815`: the number of errors -/
def scanSetupPy (setupPy : Str) : Nat :=
  let found := ["import versioneer", "versioneer.get_cmdclass()", "versioneer.get_version()"].filter
    fun x => inSomeLine (lit x) setupPy
  let setters := inSomeLine (lit "versioneer.VCS") setupPy || inSomeLine (lit "versioneer.versionfile_source") setupPy
  (if found.length ≠ 3 then 1 else 0) + (if setters then 1 else 0)

end TwoLayer.Version
