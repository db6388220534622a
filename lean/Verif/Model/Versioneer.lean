import Verif.Model.Version

/-!
# `versioneer.py`: the version that `setup.py` computes, and the file it writes into distributions

Functions that `versioneer.py` and `_version.py` share word for word (`run_command`, `git_pieces_from_vcs`, `render…`,
`versions_from_parentdir`) are those of `Model/Version.lean`.  A file is the list of its characters after Python's universal
newline translation.
-/

namespace TwoLayer.Version

/-! ## JSON -/

/-- A JSON value as `write_to_version_file` writes it (simplification: no numbers, arrays, nested objects). -/
inductive JVal where
  | null
  | bool (b : Bool)
  | str (s : Str)
deriving DecidableEq

/-- A Python `dict` with string keys: what each key is mapped to.  (Order is not observable by `==` or look-up.) -/
abbrev Dict := Str → Option JVal

/-- the hexadecimal digits of `"%04x"`, used for `json.dumps`, `versioneer.py:1221` -/
def hexDigit (n : Nat) : Char := if n < 10 then Char.ofNat (48 + n) else Char.ofNat (87 + n)

/-- `'\\u{0:04x}'.format(n)`, `json.encoder.py_encode_basestring_ascii` (standard library) -/
def uEscape (n : Nat) : Str :=
  ['\\', 'u', hexDigit (n / 4096), hexDigit (n / 256 % 16), hexDigit (n / 16 % 16), hexDigit (n % 16)]

/-- one character of `json.dumps` with the default `ensure_ascii=True` (standard library); used at `versioneer.py:1221` -/
def jsonChar (c : Char) : Str :=
  if c = '"' then ['\\', '"']
  else if c = '\\' then ['\\', '\\']
  else if c = '\n' then ['\\', 'n']
  else if c = '\r' then ['\\', 'r']
  else if c = '\t' then ['\\', 't']
  else if c = '\x0c' then ['\\', 'f']
  else if c = '\x08' then ['\\', 'b']
  else if 32 ≤ c.toNat ∧ c.toNat ≤ 126 then [c]
  else if c.toNat < 65536 then uEscape c.toNat
  else uEscape (55296 + (c.toNat - 65536) / 1024) ++ uEscape (56320 + (c.toNat - 65536) % 1024)

/-- a JSON string literal, `json.dumps`, `versioneer.py:1221` -/
def jsonStr (s : Str) : Str := '"' :: (s.flatMap jsonChar ++ ['"'])

/-- `json.dumps` of a value, `versioneer.py:1221` -/
def JVal.dumps : JVal → Str
  | .null => lit "null"
  | .bool true => lit "true"
  | .bool false => lit "false"
  | .str s => jsonStr s

/-- `None` or a string, values of `versioneer.py:1366-1396` -/
def optStr : Option Str → JVal
  | none => .null
  | some s => .str s

/-- `None` or a truth value, values of `versioneer.py:1366-1396` -/
def optBool : Option Bool → JVal
  | none => .null
  | some b => .bool b

/-- The keys and values of the dict returned by `get_versions`, sorted by key (`sort_keys=True`). (`versioneer.py:1221`) -/
def Info.items (i : Info) : List (Str × JVal) :=
  [(lit "date", optStr i.date), (lit "dirty", optBool i.dirty), (lit "error", optStr i.error),
    (lit "full-revisionid", optStr i.fullRevisionid), (lit "version", .str i.version)]

/-- one `"key": value` line, `versioneer.py:1221-1222` -/
def jsonItem (kv : Str × JVal) : Str := lit " " ++ jsonStr kv.1 ++ lit ": " ++ kv.2.dumps

/-- `json.dumps(versions, sort_keys=True, indent=1, separators=(",", ": "))`, `versioneer.py:1221-1222` -/
def Info.dumps (i : Info) : Str := lit "{\n" ++ (lit ",\n").intercalate (i.items.map jsonItem) ++ lit "\n}"

/-- where the scanner of a string literal is: in plain text, after a backslash, or inside `\uXXXX` with this many digits to
go after the next one, `json.loads`, `versioneer.py:1215` -/
inductive Scan where
  | plain
  | esc
  | hex (k v : Nat)

/-- value of a hexadecimal digit, `json.loads`, `versioneer.py:1215` -/
def hexVal (c : Char) : Option Nat :=
  if 48 ≤ c.toNat ∧ c.toNat ≤ 57 then some (c.toNat - 48)
  else if 97 ≤ c.toNat ∧ c.toNat ≤ 102 then some (c.toNat - 87)
  else if 65 ≤ c.toNat ∧ c.toNat ≤ 70 then some (c.toNat - 55)
  else none

/-- the one-letter escapes of a JSON string, `json.loads`, `versioneer.py:1215` -/
def jsonUnescape (c : Char) : Option Nat :=
  if c = '"' then some 34
  else if c = '\\' then some 92
  else if c = '/' then some 47
  else if c = 'b' then some 8
  else if c = 'f' then some 12
  else if c = 'n' then some 10
  else if c = 'r' then some 13
  else if c = 't' then some 9
  else none

/-- `json.decoder.py_scanstring` (standard library, strict): the code units up to the closing quote, and the rest -/
def scanString : Scan → Str → Option (List Nat × Str)
  | _, [] => none
  | .plain, c :: s =>
    if c = '"' then some ([], s)
    else if c = '\\' then scanString .esc s
    else if c.toNat < 32 then none
    else (scanString .plain s).map fun r => (c.toNat :: r.1, r.2)
  | .esc, c :: s =>
    if c = 'u' then scanString (.hex 3 0) s
    else match jsonUnescape c with
      | none => none
      | some u => (scanString .plain s).map fun r => (u :: r.1, r.2)
  | .hex k v, c :: s =>
    match hexVal c with
    | none => none
    | some d =>
      if k = 0 then (scanString .plain s).map fun r => ((16 * v + d) :: r.1, r.2)
      else scanString (.hex (k - 1) (16 * v + d)) s

/-- surrogate pairs become one character (simplification: a lone surrogate, which a Python `str` may hold, is an error) -/
def joinUnits : Option Nat → List Nat → Option Str
  | none, [] => some []
  | some _, [] => none
  | none, u :: us =>
    if 55296 ≤ u ∧ u < 56320 then joinUnits (some u) us
    else if 56320 ≤ u ∧ u < 57344 then none
    else (joinUnits none us).map (Char.ofNat u :: ·)
  | some h, u :: us =>
    if 56320 ≤ u ∧ u < 57344 then
      (joinUnits none us).map (Char.ofNat (65536 + (h - 55296) * 1024 + (u - 56320)) :: ·)
    else none

/-- a string literal without its opening quote, `json.loads`, `versioneer.py:1215` -/
def parseString (s : Str) : Option (Str × Str) :=
  (scanString .plain s).bind fun r => (joinUnits none r.1).map fun t => (t, r.2)

/-- JSON white space, `json.loads`, `versioneer.py:1215` -/
def jsonSpace (c : Char) : Bool := c = ' ' || c = '\t' || c = '\n' || c = '\r'

/-- skip white space, `json.loads`, `versioneer.py:1215` -/
def skip : Str → Str := List.dropWhile jsonSpace

/-- a value (simplification: strings and constants only) -/
def parseValue (s : Str) : Option (JVal × Str) :=
  if (lit "\"").isPrefixOf s then (parseString (s.drop 1)).map fun r => (.str r.1, r.2)
  else if (lit "null").isPrefixOf s then some (.null, s.drop 4)
  else if (lit "true").isPrefixOf s then some (.bool true, s.drop 4)
  else if (lit "false").isPrefixOf s then some (.bool false, s.drop 5)
  else none

/-- the members of an object after `{` or `,`, up to and including `}` (`json.decoder.JSONObject`); the first argument
bounds the number of members, `json.loads`, `versioneer.py:1215` -/
def parseMembers : Nat → Str → Option (List (Str × JVal) × Str)
  | 0, _ => none
  | n + 1, s =>
    if (lit "\"").isPrefixOf (skip s) then
      (parseString ((skip s).drop 1)).bind fun k =>
        if (lit ":").isPrefixOf (skip k.2) then
          (parseValue (skip ((skip k.2).drop 1))).bind fun v =>
            if (lit ",").isPrefixOf (skip v.2) then
              (parseMembers n ((skip v.2).drop 1)).map fun r => ((k.1, v.1) :: r.1, r.2)
            else if (lit "}").isPrefixOf (skip v.2) then some ([(k.1, v.1)], (skip v.2).drop 1)
            else none
        else none
    else none

/-- the dict of a list of pairs: the last one with a key counts, `json.loads`, `versioneer.py:1215` -/
def Dict.ofList (l : List (Str × JVal)) : Dict := fun k => (l.reverse.find? (fun kv => kv.1 = k)).map Prod.snd

/-- `json.loads`, used at `versioneer.py:1215` and in the written file (`versioneer.py:1197`); `JSONDecodeError` is a
`ValueError` (simplification: only flat objects with string and constant values) -/
def loads (s : Str) : Except VErr Dict :=
  if (lit "{").isPrefixOf (skip s) then
    if (lit "}").isPrefixOf (skip ((skip s).drop 1)) then
      if skip ((skip ((skip s).drop 1)).drop 1) = [] then .ok (Dict.ofList []) else .error .value
    else match parseMembers s.length ((skip s).drop 1) with
      | some (l, r) => if skip r = [] then .ok (Dict.ofList l) else .error .value
      | none => .error .value
  else .error .value

/-- the dict returned by `get_versions`, `versioneer.py:1366-1396` -/
def Info.dict (i : Info) : Dict := fun k =>
  if k = lit "version" then some (.str i.version)
  else if k = lit "full-revisionid" then some (optStr i.fullRevisionid)
  else if k = lit "dirty" then some (optBool i.dirty)
  else if k = lit "error" then some (optStr i.error)
  else if k = lit "date" then some (optStr i.date)
  else none

/-! ## The version file -/

/-- `SHORT_VERSION_PY` up to `%s`, `versioneer.py:1183-1192` -/
def shortHead : Str := lit "
# This file was generated by 'versioneer.py' (0.18) from
# revision-control system data, or from the parent directory name of an
# unpacked source archive. Distribution tarballs contain a pre-generated copy
# of this file.

import json

version_json = '''
"

/-- `SHORT_VERSION_PY` after `%s`, `versioneer.py:1192-1198` -/
def shortTail : Str := lit "
'''  # END VERSION_JSON


def get_versions():
    return json.loads(version_json)
"

/-- the file written by `write_to_version_file`, `versioneer.py:1218-1226` -/
def Info.file (i : Info) : Str := shortHead ++ i.dumps ++ shortTail

/-- the text before the last occurrence of `pat`, used for `re.search`, `versioneer.py:1208, 1211` -/
def beforeLast (pat : Str) : Str → Option Str
  | [] => none
  | c :: s =>
    match beforeLast pat s with
    | some r => some (c :: r)
    | none => if pat.isPrefixOf (c :: s) then some [] else none

/-- `re.search(pre + "(.*)" + post, s, re.S)`: first start, longest group, `versioneer.py:1208, 1211` -/
def reBetween (pre post : Str) : Str → Option Str
  | [] => none
  | c :: s =>
    if pre.isPrefixOf (c :: s) then
      match beforeLast post ((c :: s).drop pre.length) with
      | some g => some g
      | none => reBetween pre post s
    else reBetween pre post s

/-- `versions_from_file`, `versioneer.py:1201-1215`; `none`: the file cannot be read -/
def versionsFromFile : Option Str → Except VErr Dict
  | none => .error .notThisMethod
  | some s =>
    match reBetween (lit "version_json = '''\n") (lit "'''  # END VERSION_JSON") s with
    | some g => loads g
    | none =>
      match reBetween (lit "version_json = '''\r\n") (lit "'''  # END VERSION_JSON") s with
      | some g => loads g
      | none => .error .notThisMethod

/-- `re.search(r'=\s*"(.*)"', line)`, `versioneer.py:957` -/
def reQuoted : Str → Option Str
  | [] => none
  | c :: s =>
    if c = '=' then
      match s.dropWhile isSpace with
      | '"' :: t => if '"' ∈ t then some ((t.reverse.dropWhile (· ≠ '"')).drop 1).reverse else reQuoted s
      | _ => reQuoted s
    else reQuoted s

/-- the dict `keywords` of `git_get_keywords`: each key may be absent, `versioneer.py:951-970` -/
structure FileKeywords where
  refnames : Option Str := none
  full : Option Str := none
  date : Option Str := none

/-- one line, `versioneer.py:955-967` -/
def FileKeywords.line (k : FileKeywords) (l : Str) : FileKeywords :=
  let k := if (lit "git_refnames =").isPrefixOf (strip l) then { k with refnames := (reQuoted l).orElse fun _ => k.refnames } else k
  let k := if (lit "git_full =").isPrefixOf (strip l) then { k with full := (reQuoted l).orElse fun _ => k.full } else k
  if (lit "git_date =").isPrefixOf (strip l) then { k with date := (reQuoted l).orElse fun _ => k.date } else k

/-- `git_get_keywords`, `versioneer.py:945-970`; `none`: the file cannot be read (simplification: not while reading) -/
def getKeywords : Option Str → FileKeywords
  | none => {}
  | some s => (s.splitOn '\n').foldl FileKeywords.line {}

/-- `git_versions_from_keywords`, `versioneer.py:974-1025` -/
def versionsFromFileKeywords (tagPrefix : Str) (k : FileKeywords) : Except VErr Info :=
  -- line 976
  if k.refnames = none ∧ k.full = none ∧ k.date = none then .error .notThisMethod
  else match k.refnames with
  | none => .error .key
  | some refnames =>
    if (lit "$Format").isPrefixOf (strip refnames) then .error .notThisMethod
    else match k.full with
    | none => .error .key
    | some full =>
      match ((tagsOf (refsOf refnames)).mergeSort (fun a b => decide (a ≤ b))).find? (tagPrefix.isPrefixOf ·) with
      | some ref => .ok ⟨ref.drop tagPrefix.length, some (strip full), some false, none, k.date.map fixDate⟩
      | none => .ok ⟨lit "0+unknown", some (strip full), some false, some (lit "no suitable tags"), none⟩

/-- `try: … except NotThisMethod: pass` followed by the next attempt, `versioneer.py:1433-1470` -/
def orElseD (x : Except VErr Dict) (y : Unit → Except VErr Dict) : Except VErr Dict :=
  match x with
  | .error .notThisMethod => y ()
  | r => r

/-- `versioneer.get_versions`, `versioneer.py:1402-1475`, with the settings of `setup.cfg:45-51`: `file` is the content of
`src/openscm_twolayermodel/_version.py`, `root` the directory of `setup.py` (path components, innermost first). -/
def setupVersions (file : Option Str) (root : List Str) (g : Git) : Except VErr Dict :=
  orElseD ((versionsFromFileKeywords tagPrefix (getKeywords file)).map Info.dict) fun _ =>
    orElseD (versionsFromFile file) fun _ =>
      orElseD ((do let p ← gitPieces tagPrefix g; render p "pep440").map Info.dict) fun _ =>
        orElseD ((versionsFromParentdir parentdirPrefix 3 root).map Info.dict) fun _ =>
          .ok (Info.dict ⟨lit "0+unknown", none, none, some (lit "unable to compute version"), none⟩)

/-! ## Importing a written version file -/

/-- the one-letter escapes of a Python string literal that `json.dumps` can produce (simplification: the others raise) -/
def pyUnescape (c : Char) : Option Char :=
  if c = '"' then some '"'
  else if c = '\'' then some '\''
  else if c = '\\' then some '\\'
  else if c = 'b' then some '\x08'
  else if c = 'f' then some '\x0c'
  else if c = 'n' then some '\n'
  else if c = 'r' then some '\r'
  else if c = 't' then some '\t'
  else none

/-- the value of the text of a `'''…'''` literal, up to the first closing `'''` (simplification: a `\uXXXX` escape that
denotes a surrogate raises) -/
def pyLiteral : Scan → Str → Option Str
  | _, [] => none
  | .plain, c :: s =>
    if (lit "'''").isPrefixOf (c :: s) then some []
    else if c = '\\' then pyLiteral .esc s
    else (pyLiteral .plain s).map (c :: ·)
  | .esc, c :: s =>
    if c = 'u' then pyLiteral (.hex 3 0) s
    else match pyUnescape c with
      | none => none
      | some u => (pyLiteral .plain s).map (u :: ·)
  | .hex k v, c :: s =>
    match hexVal c with
    | none => none
    | some d =>
      if k = 0 then
        if 55296 ≤ 16 * v + d ∧ 16 * v + d < 57344 then none
        else (pyLiteral .plain s).map (Char.ofNat (16 * v + d) :: ·)
      else pyLiteral (.hex (k - 1) (16 * v + d)) s

/-- the text after the first occurrence of `pat`, `SHORT_VERSION_PY` read as a module, `versioneer.py:1192-1198` -/
def afterFirst (pat : Str) : Str → Option Str
  | [] => none
  | c :: s => if pat.isPrefixOf (c :: s) then some ((c :: s).drop pat.length) else afterFirst pat s

/-- `get_versions()` of a file with the shape of `SHORT_VERSION_PY`, `versioneer.py:1196-1197` (an unterminated literal is a
`SyntaxError`) -/
def importedVersions (file : Str) : Except VErr Dict :=
  match afterFirst (lit "version_json = '''") file with
  | none => .error .syntax
  | some s =>
    match pyLiteral .plain s with
    | none => .error .syntax
    | some v => loads v

/-- `versions["version"]`, `__init__.py:11`, `versioneer.py:1480` -/
def versionOf (d : Dict) : Except VErr JVal :=
  match d (lit "version") with
  | some v => .ok v
  | none => .error .key

end TwoLayer.Version
