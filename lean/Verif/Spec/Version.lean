import Verif.Model.Versioneer

/-!
# What git prints, and what the version string should be
-/

namespace TwoLayer.Version

/-- a hash as git prints it -/
def IsHash (h : Str) : Prop := h ≠ [] ∧ ∀ c ∈ h, c ∈ "0123456789abcdef".toList

/-- text without white space (git allows none in tag names) -/
def Solid (t : Str) : Prop := ∀ c ∈ t, c ∉ " \t\n\r\x0b\x0c".toList

/-- the decimal digits of a number -/
def digits (n : Nat) : Str := (toString n).toList

/-- `-dirty` if there are uncommitted changes -/
def dirtySuffix (dirty : Bool) : Str := if dirty then "-dirty".toList else []

/-- what `git describe --long --dirty` prints `n` commits after `tag` -/
def describeTagged (tag : Str) (n : Nat) (hash : Str) (dirty : Bool) : Str :=
  tag ++ "-".toList ++ digits n ++ "-g".toList ++ hash ++ dirtySuffix dirty

/-- what `git describe --always --dirty` prints without a tag -/
def describeUntagged (hash : Str) (dirty : Bool) : Str := hash ++ dirtySuffix dirty

/-- what `git show --format=%ci` prints: date, time and zone -/
def gitDate (d t z : Str) : Str := d ++ " ".toList ++ t ++ " ".toList ++ z

/-- the same moment in ISO 8601 -/
def isoDate (d t z : Str) : Str := d ++ "T".toList ++ t ++ z

/-- a command that is found, prints this line and returns 0 -/
def Prints (p : List Proc) (line : Str) : Prop :=
  ∃ k rest, p = List.replicate k .enoent ++ .ran (line ++ ['\n']) 0 :: rest

/-- a command that is found, prints this text and returns 0 -/
def Answers (p : List Proc) (text : Str) : Prop := ∃ k rest, p = List.replicate k .enoent ++ .ran text 0 :: rest

/-- a command that is not found, cannot be started, or returns an error status, whatever it prints -/
def Fails (p : List Proc) : Prop := ∃ k, p = List.replicate k .enoent ∨ ∃ rest,
  p = List.replicate k .enoent ++ .osError :: rest ∨ ∃ text rc, rc ≠ 0 ∧ p = List.replicate k .enoent ++ .ran text rc :: rest

/-- `raw` is `text` with white space before and after it -/
def Padded (raw text : Str) : Prop := ∃ w w', raw = w ++ text ++ w' ∧ ∀ c ∈ w ++ w', c ∈ " \t\n\r\x0b\x0c".toList

/-- a natural number in decimal digits -/
def IsNumber (s : Str) : Prop := s ≠ [] ∧ ∀ c ∈ s, c ∈ "0123456789".toList

/-- `g` is what git answers in a checkout of commit `full`, made on day `day` at `time` in `zone` -/
structure Checkout (g : Git) (full day time zone : Str) : Prop where
  gitDir : Prints g.gitDir ".git".toList
  full_hash : IsHash full
  head : Prints g.head full
  day_ne : day ≠ []
  zone_ne : zone ≠ []
  day_solid : Solid day
  time_solid : Solid time
  zone_solid : Solid zone
  date : Prints g.date (gitDate day time zone)

/-- PEP 440 version of a build `n` commits after the release `x` -/
def pep440 (x : Str) (n : Nat) (hash : Str) (dirty : Bool) : Str :=
  if n = 0 ∧ dirty = false then x
  else x ++ (if '+' ∈ x then ".".toList else "+".toList) ++ digits n ++ ".g".toList ++ hash ++
    (if dirty then ".dirty".toList else [])

/-- PEP 440 version of a build without a tag -/
def pep440Untagged (n : Nat) (hash : Str) (dirty : Bool) : Str :=
  "0+untagged.".toList ++ digits n ++ ".g".toList ++ hash ++ (if dirty then ".dirty".toList else [])

/-- what `git describe --dirty` (without `--long`) prints -/
def describeShort (tag : Str) (n : Nat) (hash : Str) (dirty : Bool) : Str :=
  if n = 0 then tag ++ dirtySuffix dirty else describeTagged tag n hash dirty

/-- style pep440-pre: `TAG[.post.devDISTANCE]` -/
def pep440Pre (x : Str) (n : Nat) : Str := if n = 0 then x else x ++ ".post.dev".toList ++ digits n

/-- style pep440-post: `TAG[.postDISTANCE[.dev0]+gHEX]`, with `.` instead of `+` if the tag has a `+` -/
def pep440Post (x : Str) (n : Nat) (hash : Str) (dirty : Bool) : Str :=
  if n = 0 ∧ dirty = false then x
  else x ++ ".post".toList ++ digits n ++ (if dirty then ".dev0".toList else []) ++
    (if '+' ∈ x then ".".toList else "+".toList) ++ "g".toList ++ hash

/-- style pep440-old: `TAG[.postDISTANCE[.dev0]]` -/
def pep440Old (x : Str) (n : Nat) (dirty : Bool) : Str :=
  if n = 0 ∧ dirty = false then x else x ++ ".post".toList ++ digits n ++ (if dirty then ".dev0".toList else [])

/-- what git-archive substitutes for `%d`: the refs pointing at the archived commit -/
def gitRefs (refs : List Str) : Str := " (".toList ++ (", ".toList).intercalate refs ++ ")".toList

/-- a ref name as it appears in that list -/
def IsRef (r : Str) : Prop := r ≠ [] ∧ (∀ c ∈ r, c ∉ ",()".toList) ∧
  (∀ c s, r = c :: s → c ∉ " \t\n\r\x0b\x0c".toList) ∧ (∀ s c, r = s ++ [c] → c ∉ " \t\n\r\x0b\x0c".toList)

/-- the refs taken to be tags: those marked `tag: `, or if there are none those with a digit -/
def TagCandidate (refs : List Str) (t : Str) : Prop :=
  "tag: ".toList ++ t ∈ refs ∨
    ((∀ t', "tag: ".toList ++ t' ∉ refs) ∧ t ∈ refs ∧ ∃ c ∈ t, c ∈ "0123456789".toList)

/-- characters U+0020 to U+FFFF without `"` and backslash, and without three apostrophes in a row -/
def PlainText (s : Str) : Prop :=
  (∀ c ∈ s, 32 ≤ c.toNat ∧ c.toNat < 65536 ∧ c ≠ '"' ∧ c ≠ '\\') ∧ ¬ "'''".toList <:+: s

/-- printable ASCII without quotation marks and backslashes -/
def Tame (s : Str) : Prop := ∀ c ∈ s, 32 ≤ c.toNat ∧ c.toNat ≤ 126 ∧ c ≠ '"' ∧ c ≠ '\'' ∧ c ≠ '\\'

/-- all texts of a version record are plain -/
def Info.Plain (i : Info) : Prop := PlainText i.version ∧ (∀ s ∈ i.fullRevisionid, PlainText s) ∧ (∀ s ∈ i.error, PlainText s) ∧
  ∀ s ∈ i.date, PlainText s

/-- `None`, or a value -/
def OrNone {β : Type} (x : Option β) (f : β → JVal) (v : Option JVal) : Prop :=
  (x = none → v = some .null) ∧ ∀ b, x = some b → v = some (f b)

/-- the dict has exactly these five entries -/
structure DictOf (d : Dict) (i : Info) : Prop where
  version : d "version".toList = some (.str i.version)
  revision : OrNone i.fullRevisionid .str (d "full-revisionid".toList)
  dirty : OrNone i.dirty .bool (d "dirty".toList)
  error : OrNone i.error .str (d "error".toList)
  date : OrNone i.date .str (d "date".toList)
  others : ∀ k, k ∉ ["version".toList, "full-revisionid".toList, "dirty".toList, "error".toList, "date".toList] → d k = none

/-- lines, each ended by a newline -/
def joinLines (ls : List Str) : Str := ls.flatMap (· ++ ['\n'])

/-- the line, apart from leading white space, does not begin with `start` -/
def LineFree (start l : Str) : Prop := ∀ w rest, l = w ++ start ++ rest → ∃ c ∈ w, c ∉ " \t\n\r\x0b\x0c".toList

/-- `text` is a `_version.py` with the keywords `k`, each defined on a line of its own as at `_version.py:26-28`, and defined
nowhere else; it is not a file written by `setup.py build` or `setup.py sdist` -/
def SourceFile (text : Str) (k : Keywords) : Prop := ∃ before after : List Str,
  text = joinLines (before ++ ["    git_refnames = \"".toList ++ k.refnames ++ "\"".toList,
    "    git_full = \"".toList ++ k.full ++ "\"".toList, "    git_date = \"".toList ++ k.date ++ "\"".toList] ++ after) ∧
  (∀ l ∈ before ++ after, '\n' ∉ l ∧ LineFree "git_refnames =".toList l ∧ LineFree "git_full =".toList l ∧
    LineFree "git_date =".toList l) ∧
  '\n' ∉ k.refnames ∧ '\n' ∉ k.full ∧ '\n' ∉ k.date ∧ ¬ "version_json = '''".toList <:+: text

end TwoLayer.Version
