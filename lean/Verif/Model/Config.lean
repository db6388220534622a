import Verif.Model.Installer

/-!
# Reading and completing `setup.cfg` (`versioneer.py:335-361, 1675-1714`)

`configparser` is outside `/repo`; what is used of it is modelled as of Python 3.11 (`RawConfigParser._read`, `get`,
`has_option` with the default delimiters and comment prefixes, strict).  Simplifications: white space and letters are ASCII; a value
with `%` is an error (Python replaces `%%` and `%(name)s`).
-/

namespace TwoLayer.Version

/-- exceptions of `configparser` and `open`, `versioneer.py:337-341` -/
inductive CfgErr where
  /-- `EnvironmentError` -/
  | noFile
  /-- `configparser.NoSectionError` -/
  | noSection
  /-- `configparser.NoOptionError` -/
  | noOption
  /-- text that `readfp` refuses, `versioneer.py:344` -/
  | parsing
  /-- `configparser.InterpolationError` -/
  | interpolation
deriving DecidableEq

/-- an option with its section and the lines of its value so far, `parser.readfp`, `versioneer.py:344` -/
structure CfgEntry where
  sec : Str
  opt : Str
  lines : List Str
deriving DecidableEq

/-- where `parser.readfp` is after some lines, `versioneer.py:344`: the sections and the options, latest first; the section it is
in; whether more lines can belong to the latest option; how far the last header or option was indented; whether there was a line that
is an error at the end -/
structure CfgState where
  secs : List Str := []
  opts : List CfgEntry := []
  cur : Option Str := none
  cont : Bool := false
  indent : Nat := 0
  bad : Bool := false
deriving DecidableEq

/-- one more line of the latest option, `versioneer.py:344` -/
def addLine (v : Str) : List CfgEntry → List CfgEntry
  | [] => []
  | e :: es => { e with lines := e.lines ++ [v] } :: es

/-- `\[(?P<header>.+)\]`: up to the last bracket of the line, `versioneer.py:344` -/
def header? : Str → Option Str
  | '[' :: s =>
    match s.reverse.dropWhile (fun c => c ≠ ']') with
    | _ :: r => if r = [] then none else some r.reverse
    | [] => none
  | _ => none

/-- `:` and `=` end the name of an option, `versioneer.py:344` -/
def isDelim (c : Char) : Bool := c = '=' || c = ':'

/-- `s.rstrip()`, `versioneer.py:344` -/
def rstrip (s : Str) : Str := (s.reverse.dropWhile isSpace).reverse

/-- `s.lower()`, `versioneer.py:344-349` -/
def lower (s : Str) : Str := s.map Char.toLower

/-- name and value of an option, `versioneer.py:344` -/
def option? (v : Str) : Option (Str × Str) :=
  match v.dropWhile (fun c => !isDelim c) with
  | _ :: x => some (lower (rstrip (v.takeWhile fun c => !isDelim c)), strip x)
  | [] => none

/-- the section whose options all sections have, `versioneer.py:344-349` -/
def defaultSec : Str := lit "DEFAULT"

/-- one line, `parser.readfp`, `versioneer.py:344` -/
def cfgLine (s : CfgState) (line : Str) : Except CfgErr CfgState :=
  let v := strip line
  if v.head? = some '#' ∨ v.head? = some ';' then .ok s
  else if v = [] then .ok (if s.cont then { s with opts := addLine [] s.opts } else s)
  else
    let ind := (line.takeWhile isSpace).length
    if s.cont = true ∧ s.indent < ind then .ok { s with opts := addLine v s.opts }
    else match header? v with
      | some h =>
        if h = defaultSec then .ok { s with cur := some h, cont := false, indent := ind }
        else if h ∈ s.secs then .error .parsing
        else .ok { s with secs := h :: s.secs, cur := some h, cont := false, indent := ind }
      | none =>
        match s.cur with
        | none => .error .parsing
        | some c =>
          match option? v with
          | none => .ok { s with indent := ind, bad := true }
          | some (o, x) =>
            if s.opts.any (fun e => e.sec = c && e.opt = o) then .error .parsing
            else .ok { s with
              opts := ⟨c, o, [x]⟩ :: s.opts, cont := !o.isEmpty, indent := ind, bad := s.bad || o.isEmpty }

/-- the lines one after the other, `versioneer.py:344` -/
def cfgLines : CfgState → List Str → Except CfgErr CfgState
  | s, [] => .ok s
  | s, l :: ls =>
    match cfgLine s l with
    | .ok s' => cfgLines s' ls
    | .error e => .error e

/-- `parser.readfp(f)`, `versioneer.py:344` -/
def cfgParse (text : Str) : Except CfgErr CfgState :=
  match cfgLines {} (pyLines text) with
  | .ok s => if s.bad then .error .parsing else .ok s
  | .error e => .error e

/-- the lines of a value put together, `versioneer.py:344` -/
def joinValue : List Str → Str
  | [] => []
  | [l] => l
  | l :: ls => l ++ '\n' :: joinValue ls

/-- the value of an option, `versioneer.py:345-349`; `none`: the section and `DEFAULT` do not have it -/
def CfgState.value (s : CfgState) (sec opt : Str) : Option Str :=
  ((s.opts.find? fun e => e.sec = sec && e.opt = lower opt).or
    (s.opts.find? fun e => e.sec = defaultSec && e.opt = lower opt)).map fun e => rstrip (joinValue e.lines)

/-- `parser.get(sec, opt)`, `versioneer.py:345, 349` -/
def CfgState.get (s : CfgState) (sec opt : Str) : Except CfgErr Str :=
  if sec ∈ s.secs then
    match s.value sec opt with
    | some v => if '%' ∈ v then .error .interpolation else .ok v
    | none => .error .noOption
  else .error .noSection

/-- the local function `get`, `versioneer.py:347-350` -/
def CfgState.get? (s : CfgState) (sec opt : Str) : Except CfgErr (Option Str) :=
  if sec ∈ s.secs ∧ (s.value sec opt).isSome then (s.get sec opt).map some else .ok none

/-- `VersioneerConfig`, `versioneer.py:351-360` -/
structure VConfig where
  vcs : Str
  style : Str
  versionfileSource : Option Str
  versionfileBuild : Option Str
  tagPrefix : Option Str
  parentdirPrefix : Option Str
  verbose : Option Str
deriving DecidableEq

/-- the section versioneer reads, `versioneer.py:345, 348-349` -/
def versioneerSec : Str := lit "versioneer"

/-- `get_config_from_root` after `readfp`, `versioneer.py:345-361` -/
def CfgState.config (s : CfgState) : Except CfgErr VConfig := do
  let vcs ← s.get versioneerSec (lit "VCS")
  let style ← s.get? versioneerSec (lit "style")
  let source ← s.get? versioneerSec (lit "versionfile_source")
  let build ← s.get? versioneerSec (lit "versionfile_build")
  let tag ← s.get? versioneerSec (lit "tag_prefix")
  let parent ← s.get? versioneerSec (lit "parentdir_prefix")
  let verbose ← s.get? versioneerSec (lit "verbose")
  pure {
    vcs := vcs
    style := style.getD []
    versionfileSource := source
    versionfileBuild := build
    tagPrefix := if tag = some (lit "''") ∨ tag = some (lit "\"\"") then some [] else tag
    parentdirPrefix := parent
    verbose := verbose }

/-- `get_config_from_root`, `versioneer.py:335-361`; the text of `setup.cfg`, `none` if there is no such file -/
def getConfig (f : Option Str) : Except CfgErr VConfig :=
  match f with
  | none => .error .noFile
  | some text =>
    match cfgParse text with
    | .ok s => s.config
    | .error e => .error e

/-- `SAMPLE_CONFIG`, `versioneer.py:1675-1688` -/
def sampleConfig : Str := lit "
# See the docstring in versioneer.py for instructions. Note that you must
# re-run 'versioneer.py setup' after changing this section, and commit the
# resulting files.

[versioneer]
#VCS = git
#style = pep440
#versionfile_source =
#versionfile_build =
#tag_prefix =
#parentdir_prefix =

"

/-- The start of `do_setup`, `versioneer.py:1697-1714`: `setup.cfg` afterwards, and what comes of it: the configuration, or
`none` (it returns 1), or an exception. -/
def setupConfig (f : Option Str) : Option Str × Except CfgErr (Option VConfig) :=
  match getConfig f with
  | .ok c => (f, .ok (some c))
  | .error .noFile => (appendFile f sampleConfig, .ok none)
  | .error .noSection => (appendFile f sampleConfig, .ok none)
  | .error .noOption => (f, .ok none)
  | .error .parsing => (f, .error .parsing)
  | .error .interpolation => (f, .error .interpolation)

end TwoLayer.Version
