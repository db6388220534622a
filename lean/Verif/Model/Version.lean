import Mathlib.Data.List.Lex
import Mathlib.Data.List.SplitOn
import Mathlib.Tactic

/-!
# `_version.py` (versioneer 0.18)

What git and the file system answer is an input of the model.  A Python `str` is a list of characters.
-/

namespace TwoLayer.Version

/-- Python `str` -/
abbrev Str := List Char

/-- a string literal, Python string literals -/
def lit (x : String) : Str := x.toList

/-- exceptions that can leave these functions, `_version.py:51` -/
inductive VErr where
  /-- `NotThisMethod`, `_version.py:51` -/
  | notThisMethod
  /-- `AttributeError`: `None.strip()`, `_version.py:301` -/
  | attribute
  /-- `TypeError`: `int(None)`, `_version.py:298` -/
  | type
  /-- `ValueError`: `int("...")` at `_version.py:298`, unknown style at `_version.py:470` -/
  | value
  /-- `KeyError`: a missing key of a dict, `versioneer.py:987` -/
  | key
  /-- `SyntaxError`: importing a damaged file -/
  | syntax
deriving DecidableEq, Repr

/-- `str.isspace` restricted to ASCII (simplification: git prints no other white space) -/
def isSpace (c : Char) : Bool := c = ' ' || c = '\t' || c = '\n' || c = '\r' || c = '\x0b' || c = '\x0c'

/-- `s.strip(chars)`, `_version.py:180` -/
def stripBy (p : Char → Bool) (s : Str) : Str := ((s.dropWhile p).reverse.dropWhile p).reverse

/-- `s.strip()`, `_version.py:174-205, 244, 248, 302` -/
def strip : Str → Str := stripBy isSpace

/-- `s.replace(" ", r, 1)`, `_version.py:174, 303` -/
def replaceSpace (r : Str) : Str → Str
  | [] => []
  | c :: s => if c = ' ' then r ++ s else c :: replaceSpace r s

/-- `date.strip().replace(" ", "T", 1).replace(" ", "", 1)`, `_version.py:174,303` -/
def fixDate (s : Str) : Str := replaceSpace [] (replaceSpace (lit "T") (strip s))

/-- `"%d" % n`, `_version.py:328-436` -/
def dec (n : Nat) : Str := Nat.toDigits 10 n

/-- `int(s)` (simplification: only plain decimal digits; Python also accepts signs, spaces and underscores) -/
def int (s : Str) : Except VErr Nat :=
  if s ≠ [] ∧ s.all Char.isDigit then .ok (Nat.ofDigitChars 10 s 0) else .error .value

/-- How starting one executable turned out, `_version.py:75-99`. -/
inductive Proc where
  /-- `OSError` with `ENOENT` -/
  | enoent
  /-- another `OSError` -/
  | osError
  /-- it ran: standard output and return code -/
  | ran (stdout : Str) (rc : Int)
deriving DecidableEq

/-- `run_command`, `_version.py:70-104`: the outcome of each candidate executable (`git`; on Windows `git.cmd`, `git.exe`);
result is `(stdout or None, returncode or None)`. -/
def runCommand : List Proc → Option Str × Option Int
  | [] => (none, none)
  | .enoent :: ps => runCommand ps
  | .osError :: _ => (none, none)
  | .ran out rc :: _ => if rc ≠ 0 then (none, some rc) else (some (strip out), some rc)

/-- What git answers in the source tree. (`run_command(GITS, ...)`, `_version.py:228-303`) -/
structure Git where
  /-- `git rev-parse --git-dir`, `_version.py:228` -/
  gitDir : List Proc
  /-- `git describe --tags --dirty --always --long --match v*`, `_version.py:237` -/
  describe : List Proc
  /-- `git rev-parse HEAD`, `_version.py:245` -/
  head : List Proc
  /-- `git rev-list HEAD --count`, `_version.py:296` -/
  count : List Proc
  /-- `git show -s --format=%ci HEAD`, `_version.py:301` -/
  date : List Proc

/-- The `pieces` dict, `_version.py:250-303`.  If `error` is set the keys closest-tag, distance and date are absent (here:
`none`, 0, empty). -/
structure Pieces where
  long : Str
  short : Str
  error : Option Str
  dirty : Bool
  closestTag : Option Str
  distance : Nat
  date : Str
deriving DecidableEq

/-- The dict returned by `get_versions`. (`_version.py:445-520`) -/
structure Info where
  version : Str
  fullRevisionid : Option Str
  dirty : Option Bool
  error : Option Str
  date : Option Str
deriving DecidableEq

/-- `[0-9a-f]`, `_version.py:269` -/
def isHex (c : Char) : Bool := c.isDigit || c = 'a' || c = 'b' || c = 'c' || c = 'd' || c = 'e' || c = 'f'

/-- match `-(\d+)-g([0-9a-f]+)$`, most digits first; `\d` restricted to ASCII digits, `$` to the very end, `_version.py:269` -/
def reTail : Str → Option (Str × Str)
  | '-' :: t => (List.range t.length).reverse.findSome? fun j =>
      if (t.take (j + 1)).all Char.isDigit = true then
        match t.drop (j + 1) with
        | '-' :: 'g' :: h => if h ≠ [] ∧ h.all isHex = true then some (t.take (j + 1), h) else none
        | _ => none
      else none
  | _ => none

/-- `re.search(r'^(.+)-(\d+)-g([0-9a-f]+)$', s)`, `_version.py:269`: greedy, so longest first group first -/
def reDescribe (s : Str) : Option (Str × Str × Str) :=
  (List.range s.length).reverse.findSome? fun i =>
    if (s.take (i + 1)).all (fun c => c != '\n') = true then
      match reTail (s.drop (i + 1)) with
      | some (n, h) => some (s.take (i + 1), n, h)
      | none => none
    else none

/-- `git_pieces_from_vcs`, `_version.py:217-305` -/
def gitPieces (tagPrefix : Str) (g : Git) : Except VErr Pieces := do
  -- lines 228-233
  if (runCommand g.gitDir).2 ≠ some 0 then .error .notThisMethod
  else
    -- lines 237-247
    match (runCommand g.describe).1 with
    | none => .error .notThisMethod
    | some out =>
      let describeOut := strip out
      match (runCommand g.head).1 with
      | none => .error .notThisMethod
      | some full =>
        let full := strip full
        -- lines 256-263; with the suffix present `rindex("-dirty")` is `len - 6`
        let dirty := (lit "-dirty").isSuffixOf describeOut
        let desc := if dirty then describeOut.take (describeOut.length - 6) else describeOut
        if '-' ∈ desc then
          match reDescribe desc with
          -- lines 270-274
          | none => .ok ⟨full, full.take 7, some (lit "unable to parse git-describe output: '" ++ describeOut ++ lit "'"),
              dirty, none, 0, []⟩
          | some (fullTag, num, hex) =>
            -- lines 277-284
            if ¬ tagPrefix.isPrefixOf fullTag then
              .ok ⟨full, full.take 7, some (lit "tag '" ++ fullTag ++ lit "' doesn't start with prefix '" ++ tagPrefix ++
                lit "'"), dirty, none, 0, []⟩
            else do
              -- lines 285-291
              let n ← int num
              -- lines 301-303
              match (runCommand g.date).1 with
              | none => .error .attribute
              | some date => .ok ⟨full, hex, none, dirty, some (fullTag.drop tagPrefix.length), n, fixDate date⟩
        else
          -- lines 293-298
          match (runCommand g.count).1 with
          | none => .error .type
          | some c => do
            let n ← int c
            match (runCommand g.date).1 with
            | none => .error .attribute
            | some date => .ok ⟨full, full.take 7, none, dirty, none, n, fixDate date⟩

/-- a non-empty closest tag (Python truth value of `pieces["closest-tag"]`) -/
def Pieces.tag (p : Pieces) : Option Str := p.closestTag.filter (fun t => !t.isEmpty)

/-- `plus_or_dot`, `_version.py:308-312` -/
def plusOrDot (p : Pieces) : Str := if '+' ∈ p.closestTag.getD [] then lit "." else lit "+"

/-- `render_pep440`, `_version.py:315-337` -/
def renderPep440 (p : Pieces) : Str :=
  match p.tag with
  | some t =>
    if p.distance ≠ 0 ∨ p.dirty then
      t ++ plusOrDot p ++ (dec p.distance ++ lit ".g" ++ p.short) ++ (if p.dirty then lit ".dirty" else [])
    else t
  | none => lit "0+untagged." ++ dec p.distance ++ lit ".g" ++ p.short ++ (if p.dirty then lit ".dirty" else [])

/-- `render_pep440_pre`, `_version.py:340-353` -/
def renderPep440Pre (p : Pieces) : Str :=
  match p.tag with
  | some t => if p.distance ≠ 0 then t ++ lit ".post.dev" ++ dec p.distance else t
  | none => lit "0.post.dev" ++ dec p.distance

/-- `render_pep440_post`, `_version.py:356-380` -/
def renderPep440Post (p : Pieces) : Str :=
  match p.tag with
  | some t =>
    if p.distance ≠ 0 ∨ p.dirty then
      t ++ lit ".post" ++ dec p.distance ++ (if p.dirty then lit ".dev0" else []) ++ plusOrDot p ++ lit "g" ++ p.short
    else t
  | none => lit "0.post" ++ dec p.distance ++ (if p.dirty then lit ".dev0" else []) ++ lit "+g" ++ p.short

/-- `render_pep440_old`, `_version.py:383-402` -/
def renderPep440Old (p : Pieces) : Str :=
  match p.tag with
  | some t =>
    if p.distance ≠ 0 ∨ p.dirty then t ++ lit ".post" ++ dec p.distance ++ (if p.dirty then lit ".dev0" else []) else t
  | none => lit "0.post" ++ dec p.distance ++ (if p.dirty then lit ".dev0" else [])

/-- `render_git_describe`, `_version.py:405-422` -/
def renderGitDescribe (p : Pieces) : Str :=
  (match p.tag with
  | some t => if p.distance ≠ 0 then t ++ lit "-" ++ dec p.distance ++ lit "-g" ++ p.short else t
  | none => p.short) ++ (if p.dirty then lit "-dirty" else [])

/-- `render_git_describe_long`, `_version.py:425-442` -/
def renderGitDescribeLong (p : Pieces) : Str :=
  (match p.tag with
  | some t => t ++ lit "-" ++ dec p.distance ++ lit "-g" ++ p.short
  | none => p.short) ++ (if p.dirty then lit "-dirty" else [])

/-- `render`, `_version.py:445-474` (Python also accepts `None` for the style, like "") -/
def render (p : Pieces) (style : String) : Except VErr Info :=
  match p.error with
  | some e => .ok ⟨lit "unknown", some p.long, none, some e, none⟩
  | none => do
    let style := if style = "" ∨ style = "default" then "pep440" else style
    let rendered ←
      if style = "pep440" then .ok (renderPep440 p)
      else if style = "pep440-pre" then .ok (renderPep440Pre p)
      else if style = "pep440-post" then .ok (renderPep440Post p)
      else if style = "pep440-old" then .ok (renderPep440Old p)
      else if style = "git-describe" then .ok (renderGitDescribe p)
      else if style = "git-describe-long" then .ok (renderGitDescribeLong p)
      else .error .value
    pure ⟨rendered, some p.long, some p.dirty, none, some p.date⟩

/-- The strings git-archive substitutes into `get_keywords`, `_version.py:20-30`. -/
structure Keywords where
  refnames : Str
  full : Str
  date : Str

/-- what is in the file when git-archive did not substitute, `_version.py:26-28` -/
def Keywords.unexpanded : Keywords := ⟨lit "$Format:%d$", lit "$Format:%H$", lit "$Format:%ci$"⟩

/-- `refs`, `_version.py:180` (a Python set: order and repetitions do not matter below) -/
def refsOf (refnames : Str) : List Str :=
  ((stripBy (fun c => c = '(' || c = ')') (strip refnames)).splitOn ',').map strip

/-- `tags`, `_version.py:183-194` (`\d` restricted to ASCII digits) -/
def tagsOf (refs : List Str) : List Str :=
  let tags := (refs.filter fun r => (lit "tag: ").isPrefixOf r).map fun r => r.drop 5
  if tags = [] then refs.filter fun r => r.any Char.isDigit else tags

/-- `git_versions_from_keywords`, `_version.py:162-213` -/
def versionsFromKeywords (tagPrefix : Str) (k : Keywords) : Except VErr Info :=
  if (lit "$Format").isPrefixOf (strip k.refnames) then .error .notThisMethod
  else
    -- lines 199-208: `for ref in sorted(tags): if ref.startswith(tag_prefix): ...`
    match ((tagsOf (refsOf k.refnames)).mergeSort (fun a b => decide (a ≤ b))).find? (tagPrefix.isPrefixOf ·) with
    | some ref => .ok ⟨ref.drop tagPrefix.length, some (strip k.full), some false, none, some (fixDate k.date)⟩
    | none => .ok ⟨lit "0+unknown", some (strip k.full), some false, some (lit "no suitable tags"), none⟩

/-- `versions_from_parentdir`, `_version.py:107-129`.  A directory is the list of its path components, innermost first;
`basename("/")` is empty and `dirname("/")` is `/`. -/
def versionsFromParentdir (parentdirPrefix : Str) : Nat → List Str → Except VErr Info
  | 0, _ => .error .notThisMethod
  | i + 1, root =>
    let dirname := root.headD []
    if parentdirPrefix.isPrefixOf dirname then
      .ok ⟨dirname.drop parentdirPrefix.length, none, some false, none, none⟩
    else versionsFromParentdir parentdirPrefix i root.tail

/-- `cfg.tag_prefix`, `_version.py:44` -/
def tagPrefix : Str := lit "v"
/-- `cfg.parentdir_prefix`, `_version.py:45` -/
def parentdirPrefix : Str := lit "openscm_twolayermodel-"

/-- `try: … except NotThisMethod: pass` followed by the next attempt, `_version.py:487-516` -/
def orElse (x : Except VErr Info) (y : Unit → Except VErr Info) : Except VErr Info :=
  match x with
  | .error .notThisMethod => y ()
  | r => r

/-- `get_versions`, `_version.py:477-520`; `file` is `realpath(__file__)` as path components innermost first, `none` if
`__file__` does not exist; `versionfile_source` has three components. -/
def getVersions (k : Keywords) (file : Option (List Str)) (g : Git) : Except VErr Info :=
  orElse (versionsFromKeywords tagPrefix k) fun _ =>
    match file with
    | none => .ok ⟨lit "0+unknown", none, none, some (lit "unable to find root of source tree"), none⟩
    | some file =>
      let root := file.drop 3
      orElse (do let p ← gitPieces tagPrefix g; render p "pep440") fun _ =>
        orElse (versionsFromParentdir parentdirPrefix 3 root) fun _ =>
          .ok ⟨lit "0+unknown", none, none, some (lit "unable to compute version"), none⟩

end TwoLayer.Version
