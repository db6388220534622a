import Verif.Model.Config

/-!
# `setup.cfg`: the file of this repository, and what configurations can be written into one

Nothing here is about how the file is read.
-/

namespace TwoLayer.Version

/-- the lines of `setup.cfg` -/
def setupCfgLines : List String := [
  "[flake8]",
  "max-line-length = 88",
  "ignore = E203, E266, E501, W503",
  "",
  "[isort]",
  "default_section = THIRDPARTY",
  "# comma after multiline breaks like black:",
  "include_trailing_comma = true",
  "known_first_party = openscm_twolayermodel",
  "# black default line length:",
  "line_length = 88",
  "# multiline breaks like black:",
  "multi_line_output = 3",
  "not_skip = __init__.py",
  "skip = versioneer.py, src/openscm_twolayermodel/_version.py",
  "",
  "[metadata]",
  "description-file = README.rst",
  "",
  "[mypy]",
  "disallow_incomplete_defs = true",
  "disallow_subclassing_any = true",
  "ignore_missing_imports = true",
  "no_implicit_optional = true",
  "warn_redundant_casts = true",
  "warn_return_any = true",
  "warn_unused_configs = true",
  "warn_unused_ignores = true",
  "",
  "[pydocstyle]",
  "# D213 - Multi-line docstring summary should start at the second line",
  "# D402 - First line should not be the function’s “signature”",
  "add_select = D213, D402",
  "# D200 - One-line docstring should fit on one line with quotes",
  "# D205 - 1 blank line required between summary line and description",
  "# D400 - First line should end with a period",
  "add_ignore = D200, D205, D400",
  "convention = numpy",
  "inherit = false",
  "match = (?!test_|_version).*\\.py",
  "",
  "[tool:pytest]",
  "testpaths = tests",
  "",
  "[versioneer]",
  "VCS = git",
  "style = pep440",
  "versionfile_source = src/openscm_twolayermodel/_version.py",
  "versionfile_build = openscm_twolayermodel/_version.py",
  "tag_prefix = v",
  "parentdir_prefix = openscm_twolayermodel-"]

/-- the file `setup.cfg` -/
def setupCfg : Str := setupCfgLines.flatMap fun l => lit l ++ ['\n']

/-- no lines, or whole lines -/
def WholeLines (t : Str) : Prop := t = [] ∨ ∃ s, t = s ++ ['\n']

/-- nothing, or a section from its header on -/
def FromHeader (t : Str) : Prop :=
  t = [] ∨ ∃ name rest, t = '[' :: (name ++ lit "]\n" ++ rest) ∧ name ≠ [] ∧ '\n' ∉ name ∧ ']' ∉ name

/-- a value that can be written on one line as it is -/
def PlainValue (v : Str) : Prop := '\n' ∉ v ∧ '%' ∉ v ∧ strip v = v

/-- a section `[versioneer]` with six values, as in `setup.cfg:45-51` -/
def writtenSection (vcs style source build tag parent : Str) : Str :=
  lit "[versioneer]\nVCS = " ++ vcs ++ lit "\nstyle = " ++ style ++ lit "\nversionfile_source = " ++ source ++
    lit "\nversionfile_build = " ++ build ++ lit "\ntag_prefix = " ++ tag ++ lit "\nparentdir_prefix = " ++ parent ++ lit "\n"

end TwoLayer.Version
