import Verif.Model.Versioneer
import Verif.Proofs.Version
import Verif.Spec.Version

set_option linter.unusedSimpArgs false

/-!
# JSON round trip
-/

namespace TwoLayer.Version

theorem hexVal_hexDigit {n : Nat} (h : n < 16) : hexVal (hexDigit n) = some n := by
  interval_cases n <;> decide

/-- code units of one character -/
def units (c : Char) : List Nat :=
  if c.toNat < 65536 then [c.toNat] else [55296 + (c.toNat - 65536) / 1024, 56320 + (c.toNat - 65536) % 1024]

theorem scan_uEscape {n : Nat} (h : n < 65536) (t : Str) :
    scanString .plain (uEscape n ++ t) = (scanString .plain t).map fun r => (n :: r.1, r.2) := by
  have e : 16 * (16 * (16 * (16 * 0 + n / 4096) + n / 256 % 16) + n / 16 % 16) + n % 16 = n := by omega
  simp only [uEscape, List.cons_append, List.nil_append, scanString, hexVal_hexDigit (show n / 4096 < 16 by omega),
    hexVal_hexDigit (show n / 256 % 16 < 16 by omega), hexVal_hexDigit (show n / 16 % 16 < 16 by omega),
    hexVal_hexDigit (show n % 16 < 16 by omega), e]
  simp

theorem char_lt (c : Char) : c.toNat < 55296 ∨ (57343 < c.toNat ∧ c.toNat < 1114112) := c.valid

theorem toNat_ne {c d : Char} (h : c ≠ d) : c.toNat ≠ d.toNat := fun e => h (Char.toNat_inj.mp e)

theorem scan_jsonChar (c : Char) (t : Str) :
    scanString .plain (jsonChar c ++ t) = (scanString .plain t).map fun r => (units c ++ r.1, r.2) := by
  unfold jsonChar
  split_ifs with h1 h2 h3 h4 h5 h6 h7 h8 h9
  · subst h1; rfl
  · subst h2; rfl
  · subst h3; rfl
  · subst h4; rfl
  · subst h5; rfl
  · subst h6; rfl
  · subst h7; rfl
  · simp only [List.cons_append, List.nil_append, scanString, if_neg h1, if_neg h2, if_neg (show ¬ c.toNat < 32 by omega),
      units, if_pos (show c.toNat < 65536 by omega)]
  · rw [scan_uEscape h9]; simp [units, h9]
  · have := char_lt c
    rw [List.append_assoc, scan_uEscape (by omega), scan_uEscape (by omega)]
    simp only [units, if_neg h9, Option.map_map]
    rfl

theorem join_units (c : Char) (us : List Nat) : joinUnits none (units c ++ us) = (joinUnits none us).map (c :: ·) := by
  have hc := char_lt c
  unfold units
  split_ifs with h
  · simp only [List.cons_append, List.nil_append, joinUnits, if_neg (show ¬ (55296 ≤ c.toNat ∧ c.toNat < 56320) by omega),
      if_neg (show ¬ (56320 ≤ c.toNat ∧ c.toNat < 57344) by omega), Char.ofNat_toNat]
  · have e : 65536 + (55296 + (c.toNat - 65536) / 1024 - 55296) * 1024 + (56320 + (c.toNat - 65536) % 1024 - 56320) = c.toNat := by
      omega
    have a : 55296 ≤ 55296 + (c.toNat - 65536) / 1024 ∧ 55296 + (c.toNat - 65536) / 1024 < 56320 := by omega
    have b : 56320 ≤ 56320 + (c.toNat - 65536) % 1024 ∧ 56320 + (c.toNat - 65536) % 1024 < 57344 := by omega
    simp only [List.cons_append, List.nil_append, joinUnits, if_pos a, if_pos b, e, Char.ofNat_toNat]

theorem join_str : ∀ (s : Str), joinUnits none (s.flatMap units) = some s
  | [] => rfl
  | c :: s => by rw [List.flatMap_cons, join_units, join_str s]; rfl

/-- an encoding of the characters of `s` that the JSON scanner decodes -/
def Reads (e : Char → Str) (s : Str) : Prop :=
  ∀ c ∈ s, ∀ t, scanString .plain (e c ++ t) = (scanString .plain t).map fun r => (units c ++ r.1, r.2)

theorem reads_jsonChar (s : Str) : Reads jsonChar s := fun c _ t => scan_jsonChar c t

theorem scan_reads {e : Char → Str} : ∀ (s r : Str), Reads e s →
    scanString .plain (s.flatMap e ++ '"' :: r) = some (s.flatMap units, r)
  | [], r, _ => by simp [scanString]
  | c :: s, r, h => by
    rw [List.flatMap_cons, List.append_assoc, h c (by simp), scan_reads s r fun x hx => h x (by simp [hx])]
    simp

theorem parse_reads {e : Char → Str} {s : Str} (h : Reads e s) (r : Str) :
    parseString (s.flatMap e ++ '"' :: r) = some (s, r) := by
  simp [parseString, scan_reads s r h, join_str]

theorem parse_str (s r : Str) : parseString (s.flatMap jsonChar ++ '"' :: r) = some (s, r) := parse_reads (reads_jsonChar s) r

/-- a string literal in this encoding -/
def encStr (e : Char → Str) (s : Str) : Str := '"' :: (s.flatMap e ++ ['"'])

/-- a value in this encoding -/
def encVal (e : Char → Str) : JVal → Str
  | .str s => encStr e s
  | v => v.dumps

/-- a line in this encoding -/
def encItem (e : Char → Str) (kv : Str × JVal) : Str := lit " " ++ encStr e kv.1 ++ lit ": " ++ encVal e kv.2

theorem encVal_json (v : JVal) : encVal jsonChar v = v.dumps := by
  cases v with
  | null => rfl
  | bool b => rfl
  | str s => rfl

theorem encItem_json : encItem jsonChar = jsonItem := by
  funext kv; rw [encItem, encVal_json]; rfl

/-- `e` encodes all texts of the value -/
def ReadsVal (e : Char → Str) (v : JVal) : Prop := ∀ s, v = .str s → Reads e s

theorem parse_val {e : Char → Str} {v : JVal} (h : ReadsVal e v) (r : Str) : parseValue (encVal e v ++ r) = some (v, r) := by
  cases v with
  | null => rfl
  | bool b => cases b <;> rfl
  | str s =>
    have : encVal e (.str s) ++ r = '"' :: (s.flatMap e ++ '"' :: r) := by simp [encVal, encStr]
    rw [this]
    simp [parseValue, lit, parse_reads (h s rfl)]

theorem skip_cons {c : Char} {s : Str} (h : jsonSpace c = false) : skip (c :: s) = c :: s := by
  simp [skip, List.dropWhile_cons, h]

theorem skip_space (s : Str) : skip (' ' :: s) = skip s := rfl
theorem skip_nl (s : Str) : skip ('\n' :: s) = skip s := rfl

theorem enc_head (e : Char → Str) (v : JVal) : ∃ c s, encVal e v = c :: s ∧ jsonSpace c = false := by
  cases v with
  | null => exact ⟨_, _, rfl, by decide⟩
  | bool b => cases b <;> exact ⟨_, _, rfl, by decide⟩
  | str s => exact ⟨_, _, rfl, by decide⟩

theorem skip_enc (e : Char → Str) (v : JVal) (r : Str) : skip (encVal e v ++ r) = encVal e v ++ r := by
  obtain ⟨c, s, eq, h⟩ := enc_head e v
  rw [eq]; exact skip_cons h

theorem q_lit : lit "\"" = ['"'] := rfl
theorem colon_lit : lit ":" = [':'] := rfl
theorem comma_lit : lit "," = [','] := rfl
theorem close_lit : lit "}" = ['}'] := rfl

/-- the members of an object, one to a line -/
theorem parse_members {e : Char → Str} : ∀ (l : List (Str × JVal)) (kv : Str × JVal) (n : Nat) (r : Str), l.length < n →
    (∀ x ∈ kv :: l, Reads e x.1 ∧ ReadsVal e x.2) →
    parseMembers n ('\n' :: ((lit ",\n").intercalate ((kv :: l).map (encItem e)) ++ '\n' :: '}' :: r)) = some (kv :: l, r) := by
  intro l
  induction l with
  | nil =>
    intro kv n r hn hx
    obtain ⟨n, rfl⟩ : ∃ m, n = m + 1 := ⟨n - 1, by simp at hn; omega⟩
    obtain ⟨hk, hv⟩ := hx kv (by simp)
    have e : ('\n' :: ((lit ",\n").intercalate ([kv].map (encItem e)) ++ '\n' :: '}' :: r)) =
        '\n' :: ' ' :: '"' :: (kv.1.flatMap e ++ '"' :: (':' :: ' ' :: (encVal e kv.2 ++ '\n' :: '}' :: r))) := by
      simp [List.intercalate, encItem, encStr, lit]
    rw [e]
    simp only [parseMembers, skip_nl, skip_space, skip_cons (show jsonSpace '"' = false by decide)]
    simp only [q_lit, colon_lit, comma_lit, close_lit, List.isPrefixOf, List.drop_succ_cons, List.drop_zero, parse_reads hk, Option.bind_some,
      skip_cons (show jsonSpace ':' = false by decide), skip_space, skip_enc, parse_val hv, skip_nl,
      skip_cons (show jsonSpace '}' = false by decide)]
    simp
  | cons kv' l ih =>
    intro kv n r hn hx
    obtain ⟨n, rfl⟩ : ∃ m, n = m + 1 := ⟨n - 1, by simp at hn; omega⟩
    obtain ⟨hk, hv⟩ := hx kv (by simp)
    have e : ('\n' :: ((lit ",\n").intercalate ((kv :: kv' :: l).map (encItem e)) ++ '\n' :: '}' :: r)) =
        '\n' :: ' ' :: '"' :: (kv.1.flatMap e ++ '"' :: (':' :: ' ' :: (encVal e kv.2 ++ ',' ::
          ('\n' :: ((lit ",\n").intercalate ((kv' :: l).map (encItem e)) ++ '\n' :: '}' :: r))))) := by
      simp [List.intercalate, encItem, encStr, lit]
    rw [e]
    simp only [parseMembers, skip_nl, skip_space, skip_cons (show jsonSpace '"' = false by decide)]
    simp only [q_lit, colon_lit, comma_lit, close_lit, List.isPrefixOf, List.drop_succ_cons, List.drop_zero, parse_reads hk, Option.bind_some,
      skip_cons (show jsonSpace ':' = false by decide), skip_space, skip_enc, parse_val hv, skip_nl,
      skip_cons (show jsonSpace ',' = false by decide)]
    have := ih kv' n r (by simpa using hn) fun x h => hx x (by simp at h ⊢; tauto)
    rw [this]; simp

theorem dict_items (i : Info) : Dict.ofList i.items = i.dict := by
  funext k
  simp only [Dict.ofList, Info.items, List.reverse_cons, List.reverse_nil, List.nil_append, List.cons_append, Info.dict]
  by_cases h1 : k = lit "version"
  · subst h1; simp [List.find?]
  by_cases h2 : k = lit "full-revisionid"
  · subst h2; rfl
  by_cases h3 : k = lit "error"
  · subst h3; rfl
  by_cases h4 : k = lit "dirty"
  · subst h4; rfl
  by_cases h5 : k = lit "date"
  · subst h5; rfl
  simp [List.find?, h1, h2, h3, h4, h5, Ne.symm h1, Ne.symm h2, Ne.symm h3, Ne.symm h4, Ne.symm h5]

/-- the record in an encoding -/
def Info.enc (e : Char → Str) (i : Info) : Str := lit "{\n" ++ (lit ",\n").intercalate (i.items.map (encItem e)) ++ lit "\n}"

theorem enc_json (i : Info) : i.enc jsonChar = i.dumps := by rw [Info.enc, encItem_json]; rfl

theorem enc_eq (e : Char → Str) (i : Info) (r : Str) : i.enc e ++ '\n' :: r =
    '{' :: ('\n' :: ((lit ",\n").intercalate (i.items.map (encItem e)) ++ '\n' :: '}' :: '\n' :: r)) := by
  simp [Info.enc, lit]

theorem dumps_eq (i : Info) (r : Str) : i.dumps ++ '\n' :: r =
    '{' :: ('\n' :: ((lit ",\n").intercalate (i.items.map jsonItem) ++ '\n' :: '}' :: '\n' :: r)) := by
  simp [Info.dumps, lit]

theorem loads_enc {e : Char → Str} (i : Info) (s : Str) (hs : skip s = i.enc e ++ ['\n']) (hlen : 4 < s.length)
    (hx : ∀ x ∈ i.items, Reads e x.1 ∧ ReadsVal e x.2) : loads s = .ok i.dict := by
  rw [enc_eq] at hs
  have hp := parse_members (i.items.tail) (lit "date", optStr i.date) s.length ['\n'] (by simpa [Info.items] using hlen) hx
  rw [show (lit "date", optStr i.date) :: i.items.tail = i.items from rfl] at hp
  have hq : skip ('\n' :: ((lit ",\n").intercalate (i.items.map (encItem e)) ++ '\n' :: '}' :: ['\n'])) =
      '"' :: (skip ('\n' :: ((lit ",\n").intercalate (i.items.map (encItem e)) ++ '\n' :: '}' :: ['\n']))).tail := by
    simp [List.intercalate, Info.items, encItem, encStr, lit, skip_nl, skip_space,
      skip_cons (show jsonSpace '"' = false by decide)]
  unfold loads
  rw [hs, if_pos (by rfl), List.drop_succ_cons, List.drop_zero, hp, hq, if_neg (by simp [lit])]
  simp [skip, jsonSpace, dict_items]

theorem loads_skip (i : Info) (s : Str) (hs : skip s = i.dumps ++ ['\n']) (hlen : 4 < s.length) : loads s = .ok i.dict :=
  loads_enc (e := jsonChar) i s (by rw [enc_json]; exact hs) hlen fun x _ => ⟨reads_jsonChar _, fun _ _ => reads_jsonChar _⟩

theorem skip_dumps_info (i : Info) (r : Str) : skip (i.dumps ++ '\n' :: r) = i.dumps ++ '\n' :: r := by
  rw [dumps_eq]; exact skip_cons (by decide)

theorem dumps_length (i : Info) : 4 < i.dumps.length := by
  simp [Info.dumps, List.intercalate, Info.items, jsonItem, jsonStr, lit]

/-! ## Reading the file back with a regular expression -/

/-- no match of `pre` starts in `a`, whatever follows -/
def noStart (pre : Str) : Str → Bool
  | [] => true
  | c :: s => !pre.isPrefixOf (c :: s) && !(c :: s).isPrefixOf pre && noStart pre s

theorem prefix_append {pre s b : Str} (h : pre <+: s ++ b) : pre <+: s ∨ s <+: pre := by
  rcases List.prefix_or_prefix_of_prefix h (List.prefix_append s b) with h | h
  · exact .inl h
  · exact .inr h

theorem reBetween_append {pre post : Str} : ∀ {a b : Str}, noStart pre a = true →
    reBetween pre post (a ++ b) = reBetween pre post b
  | [], b, _ => rfl
  | c :: a, b, h => by
    simp only [noStart, Bool.and_eq_true, Bool.not_eq_true'] at h
    have hn : ¬ pre.isPrefixOf (c :: a ++ b) = true := by
      intro hc
      rw [List.isPrefixOf_iff_prefix] at hc
      rcases prefix_append hc with hc | hc
      · rw [← List.isPrefixOf_iff_prefix, h.1.1] at hc; cases hc
      · rw [← List.isPrefixOf_iff_prefix, h.1.2] at hc; cases hc
    rw [List.cons_append] at hn ⊢
    rw [reBetween, if_neg hn, reBetween_append h.2]

theorem afterFirst_append {pre : Str} : ∀ {a b : Str}, noStart pre a = true → afterFirst pre (a ++ b) = afterFirst pre b
  | [], b, _ => rfl
  | c :: a, b, h => by
    simp only [noStart, Bool.and_eq_true, Bool.not_eq_true'] at h
    have hn : ¬ pre.isPrefixOf (c :: a ++ b) = true := by
      intro hc
      rw [List.isPrefixOf_iff_prefix] at hc
      rcases prefix_append hc with hc | hc
      · rw [← List.isPrefixOf_iff_prefix, h.1.1] at hc; cases hc
      · rw [← List.isPrefixOf_iff_prefix, h.1.2] at hc; cases hc
    rw [List.cons_append] at hn ⊢
    rw [afterFirst, if_neg hn, afterFirst_append h.2]

theorem beforeLast_append {pat : Str} {p : Char} {ps : Str} (hp : pat = p :: ps) {b : Str}
    (hb : beforeLast pat (ps ++ b) = none) : ∀ (a : Str), beforeLast pat (a ++ pat ++ b) = some a
  | [] => by
    subst hp
    rw [List.nil_append, List.cons_append, beforeLast, hb]
    simp
  | c :: a => by
    have := beforeLast_append hp hb a
    rw [List.cons_append, List.cons_append, beforeLast, this]

/-- the file header before the assignment -/
def shortIntro : Str := lit "
# This file was generated by 'versioneer.py' (0.18) from
# revision-control system data, or from the parent directory name of an
# unpacked source archive. Distribution tarballs contain a pre-generated copy
# of this file.

import json

"

/-- the file after the end marker -/
def shortOutro : Str := lit "


def get_versions():
    return json.loads(version_json)
"

set_option maxRecDepth 4000 in
theorem file_eq (i : Info) : i.file = shortIntro ++ (lit "version_json = '''" ++ ('\n' :: (i.dumps ++ ['\n'] ++
    (lit "'''  # END VERSION_JSON" ++ shortOutro)))) := by
  have h1 : shortHead = shortIntro ++ (lit "version_json = '''" ++ ['\n']) := by decide
  have h2 : shortTail = ['\n'] ++ (lit "'''  # END VERSION_JSON" ++ shortOutro) := by decide
  rw [Info.file, h1, h2]
  simp only [List.append_assoc, List.cons_append, List.nil_append]

set_option maxRecDepth 4000 in
theorem intro_noStart : noStart (lit "version_json = '''\n") shortIntro = true ∧
    noStart (lit "version_json = '''") shortIntro = true := by decide

set_option maxRecDepth 4000 in
theorem versionsFromFile_file (i : Info) : versionsFromFile (some i.file) = .ok i.dict := by
  have hb := beforeLast_append (pat := lit "'''  # END VERSION_JSON") (p := '\'') (ps := lit "''  # END VERSION_JSON") rfl
    (b := shortOutro) (by decide) (i.dumps ++ ['\n'])
  have hr : reBetween (lit "version_json = '''\n") (lit "'''  # END VERSION_JSON") i.file = some (i.dumps ++ ['\n']) := by
    rw [file_eq, reBetween_append intro_noStart.1]
    have e : lit "version_json = '''" ++ ('\n' :: (i.dumps ++ ['\n'] ++ (lit "'''  # END VERSION_JSON" ++ shortOutro))) =
        'v' :: (lit "ersion_json = '''\n" ++ (i.dumps ++ ['\n'] ++ (lit "'''  # END VERSION_JSON" ++ shortOutro))) := by
      simp [lit]
    rw [e, reBetween, if_pos (by simp [lit])]
    have e2 : List.drop (lit "version_json = '''\n").length ('v' :: (lit "ersion_json = '''\n" ++
        (i.dumps ++ ['\n'] ++ (lit "'''  # END VERSION_JSON" ++ shortOutro)))) =
        i.dumps ++ ['\n'] ++ lit "'''  # END VERSION_JSON" ++ shortOutro := by
      simp [lit]
    rw [e2, hb]
  rw [versionsFromFile, hr]
  exact loads_skip i _ (skip_dumps_info i []) (by have := dumps_length i; simp; omega)

/-! ## Keywords -/

theorem splitOn_joinLines : ∀ (ls : List Str) (r : Str), (∀ l ∈ ls, '\n' ∉ l) → (joinLines ls ++ r).splitOn '\n' = ls ++ r.splitOn '\n'
  | [], r, _ => rfl
  | l :: ls, r, h => by
    have h1 : '\n' ∉ l := h l (by simp)
    have := splitOn_joinLines ls r (fun x hx => h x (by simp [hx]))
    have e : joinLines (l :: ls) ++ r = l ++ '\n' :: (joinLines ls ++ r) := by simp [joinLines]
    rw [e, List.cons_append, ← this, List.splitOn, List.splitOn]
    exact List.splitOnP_append_cons_of_forall_mem (fun x hx => by
      rw [beq_eq_false_iff_ne]; rintro rfl; exact h1 hx) _ (by simp) _

theorem strip_prefix (s : Str) : strip s <+: s.dropWhile isSpace := by
  unfold strip stripBy
  rw [← List.reverse_suffix, List.reverse_reverse]
  exact List.dropWhile_suffix _

/-- the line does not define `name` -/
def Silent (name l : Str) : Prop := ¬ name <+: l.dropWhile isSpace

theorem silent_strip {name l : Str} (h : Silent name l) : name.isPrefixOf (strip l) = false := by
  rw [Bool.eq_false_iff]
  intro hc
  rw [List.isPrefixOf_iff_prefix] at hc
  exact h (hc.trans (strip_prefix l))

/-- no keyword is defined on this line -/
def Mute (l : Str) : Prop := Silent (lit "git_refnames =") l ∧ Silent (lit "git_full =") l ∧ Silent (lit "git_date =") l

theorem line_mute {l : Str} (h : Mute l) (k : FileKeywords) : k.line l = k := by
  simp [FileKeywords.line, silent_strip h.1, silent_strip h.2.1, silent_strip h.2.2]

theorem foldl_mute : ∀ (ls : List Str) (k : FileKeywords), (∀ l ∈ ls, Mute l) → ls.foldl FileKeywords.line k = k
  | [], _, _ => rfl
  | l :: ls, k, h => by
    rw [List.foldl_cons, line_mute (h l (by simp)), foldl_mute ls k (fun x hx => h x (by simp [hx]))]

theorem mute_of_head {l : Str} {c : Char} {t : Str} (h : l.dropWhile isSpace = c :: t) (hc : c ≠ 'g') : Mute l := by
  refine ⟨?_, ?_, ?_⟩ <;>
  · intro hp
    rw [h] at hp
    obtain ⟨x, hx⟩ := hp
    simp [lit] at hx
    exact hc hx.1.symm

theorem jsonChar_nl (c : Char) : '\n' ∉ jsonChar c := by
  have hx : ∀ n, n < 16 → hexDigit n ≠ '\n' := by intro n hn; interval_cases n <;> decide
  have hu : ∀ n, n < 65536 → '\n' ∉ uEscape n := by
    intro n hn
    simp only [uEscape, List.mem_cons, List.not_mem_nil, or_false, not_or]
    exact ⟨by decide, by decide, (hx _ (by omega)).symm, (hx _ (by omega)).symm, (hx _ (by omega)).symm, (hx _ (by omega)).symm⟩
  have hc := char_lt c
  unfold jsonChar
  split_ifs with h1 h2 h3 h4 h5 h6 h7 h8 h9
  all_goals first | decide | skip
  · simpa using Ne.symm h3
  · exact hu _ h9
  · rw [List.mem_append, not_or]
    exact ⟨hu _ (by omega), hu _ (by omega)⟩

theorem jsonStr_nl (s : Str) : '\n' ∉ jsonStr s := by
  simp only [jsonStr, List.mem_cons, List.mem_append, List.mem_flatMap, List.not_mem_nil, or_false, not_or, not_exists, not_and]
  exact ⟨by decide, fun c _ => jsonChar_nl c, by decide⟩

theorem dumps_nl (v : JVal) : '\n' ∉ v.dumps := by
  cases v with
  | null => decide
  | bool b => cases b <;> decide
  | str s => exact jsonStr_nl s

theorem item_nl (kv : Str × JVal) : '\n' ∉ jsonItem kv := by
  simp only [jsonItem, List.mem_append, not_or]
  exact ⟨⟨⟨by decide, jsonStr_nl _⟩, by decide⟩, dumps_nl _⟩

theorem item_mute (kv : Str × JVal) (r : Str) : Mute (jsonItem kv ++ r) :=
  mute_of_head (c := '"') (t := (jsonItem kv ++ r).tail.tail) (by simp [jsonItem, jsonStr, lit, List.dropWhile_cons, isSpace]) (by decide)

/-- the lines of `shortHead` -/
def headLines : List Str := [[], lit "# This file was generated by 'versioneer.py' (0.18) from",
  lit "# revision-control system data, or from the parent directory name of an",
  lit "# unpacked source archive. Distribution tarballs contain a pre-generated copy", lit "# of this file.", [],
  lit "import json", [], lit "version_json = '''"]

/-- the lines of `shortTail` -/
def tailLines : List Str := [lit "'''  # END VERSION_JSON", [], [], lit "def get_versions():",
  lit "    return json.loads(version_json)"]

instance (n l : Str) : Decidable (Silent n l) := by unfold Silent; infer_instance
instance (l : Str) : Decidable (Mute l) := by unfold Mute; infer_instance

set_option maxRecDepth 8000 in
theorem getKeywords_file (i : Info) : getKeywords (some i.file) = {} := by
  have e : i.file = joinLines (headLines ++ ([lit "{"] ++ ([jsonItem (lit "date", optStr i.date) ++ lit ",",
      jsonItem (lit "dirty", optBool i.dirty) ++ lit ",", jsonItem (lit "error", optStr i.error) ++ lit ",",
      jsonItem (lit "full-revisionid", optStr i.fullRevisionid) ++ lit ",", jsonItem (lit "version", .str i.version) ++ []] ++
      ([lit "}"] ++ tailLines)))) ++ [] := by
    have h1 : shortHead = joinLines headLines := by decide
    have h2 : shortTail = '\n' :: joinLines tailLines := by decide
    have h3 : ∀ a b, joinLines (a ++ b) = joinLines a ++ joinLines b := fun a b => by simp [joinLines]
    rw [Info.file, h1, h2, h3, h3, h3, h3]
    simp [Info.dumps, Info.items, List.intercalate, joinLines, lit]
  have hm : ∀ l ∈ headLines ++ ([lit "{"] ++ ([jsonItem (lit "date", optStr i.date) ++ lit ",",
      jsonItem (lit "dirty", optBool i.dirty) ++ lit ",", jsonItem (lit "error", optStr i.error) ++ lit ",",
      jsonItem (lit "full-revisionid", optStr i.fullRevisionid) ++ lit ",", jsonItem (lit "version", .str i.version) ++ []] ++
      ([lit "}"] ++ tailLines))), '\n' ∉ l ∧ Mute l := by
    intro l hl
    rw [List.mem_append, List.mem_append, List.mem_append, List.mem_append] at hl
    have c1 : ∀ l ∈ headLines, '\n' ∉ l ∧ Mute l := by decide
    have c2 : ∀ l ∈ tailLines, '\n' ∉ l ∧ Mute l := by decide
    have c3 : ∀ kv : Str × JVal, '\n' ∉ jsonItem kv ++ lit "," := fun kv => by
      rw [List.mem_append, not_or]; exact ⟨item_nl kv, by decide⟩
    rcases hl with hl | hl | hl | hl | hl
    · exact c1 l hl
    · rw [List.mem_singleton] at hl; subst hl; decide
    · simp only [List.mem_cons, List.not_mem_nil, or_false] at hl
      rcases hl with rfl | rfl | rfl | rfl | rfl
      · exact ⟨c3 _, item_mute _ _⟩
      · exact ⟨c3 _, item_mute _ _⟩
      · exact ⟨c3 _, item_mute _ _⟩
      · exact ⟨c3 _, item_mute _ _⟩
      · exact ⟨by rw [List.append_nil]; exact item_nl _, item_mute _ _⟩
    · rw [List.mem_singleton] at hl; subst hl; decide
    · exact c2 l hl
  rw [getKeywords, e, splitOn_joinLines _ _ (fun l hl => (hm l hl).1), List.foldl_append, foldl_mute _ _ (fun l hl => (hm l hl).2)]
  rfl

theorem silent_of_free {start l : Str} (h : LineFree start l) : Silent start l := by
  rintro ⟨rest, hr⟩
  obtain ⟨c, hc, hn⟩ := h (l.takeWhile isSpace) rest (by rw [List.append_assoc, hr, List.takeWhile_append_dropWhile])
  have : isSpace c = true := List.all_eq_true.mp List.all_takeWhile c hc
  apply hn
  simp only [isSpace, Bool.or_eq_true, decide_eq_true_eq] at this
  simp only [show " \t\n\r\x0b\x0c".toList = [' ', '\t', '\n', '\r', '\x0b', '\x0c'] from rfl, List.mem_cons, List.not_mem_nil, or_false]
  tauto

theorem reQuoted_skip : ∀ {a : Str} {s : Str}, '=' ∉ a → reQuoted (a ++ s) = reQuoted s
  | [], _, _ => rfl
  | c :: a, s, h => by
    rw [List.mem_cons, not_or] at h
    rw [List.cons_append, reQuoted, if_neg (Ne.symm h.1), reQuoted_skip h.2]

theorem reQuoted_value (v : Str) : reQuoted ('=' :: ' ' :: '"' :: (v ++ ['"'])) = some v := by
  rw [reQuoted, if_pos rfl]
  simp [List.dropWhile_cons, isSpace]

theorem strip_kw {a m : Str} (ha : ∀ c ∈ a, isSpace c = true) : strip (a ++ 'g' :: (m ++ ['"'])) = 'g' :: (m ++ ['"']) := by
  have h1 : (a ++ 'g' :: (m ++ ['"'])).dropWhile isSpace = 'g' :: (m ++ ['"']) := by
    rw [List.dropWhile_append_of_pos ha]
    simp [List.dropWhile_cons, isSpace]
  rw [strip, stripBy, h1]
  simp [List.dropWhile_cons, isSpace]

theorem line_refnames (k : FileKeywords) (v : Str) : k.line ("    git_refnames = \"".toList ++ v ++ "\"".toList) =
    { k with refnames := some v } := by
  have e : "    git_refnames = \"".toList ++ v ++ "\"".toList = lit "    " ++ 'g' :: (lit "it_refnames = \"" ++ v ++ ['"']) := by
    simp [lit]
  have e2 : lit "    " ++ 'g' :: (lit "it_refnames = \"" ++ v ++ ['"']) = lit "    git_refnames " ++ '=' :: ' ' :: '"' :: (v ++ ['"']) := by
    simp [lit]
  have hs := strip_kw (a := lit "    ") (m := lit "it_refnames = \"" ++ v) (by decide)
  have hq : reQuoted (lit "    " ++ 'g' :: (lit "it_refnames = \"" ++ v ++ ['"'])) = some v := by
    rw [e2, reQuoted_skip (by decide), reQuoted_value]
  rw [e]
  simp only [FileKeywords.line, hs, hq]
  simp [lit]

theorem line_full (k : FileKeywords) (v : Str) : k.line ("    git_full = \"".toList ++ v ++ "\"".toList) =
    { k with full := some v } := by
  have e : "    git_full = \"".toList ++ v ++ "\"".toList = lit "    " ++ 'g' :: (lit "it_full = \"" ++ v ++ ['"']) := by
    simp [lit]
  have e2 : lit "    " ++ 'g' :: (lit "it_full = \"" ++ v ++ ['"']) = lit "    git_full " ++ '=' :: ' ' :: '"' :: (v ++ ['"']) := by
    simp [lit]
  have hs := strip_kw (a := lit "    ") (m := lit "it_full = \"" ++ v) (by decide)
  have hq : reQuoted (lit "    " ++ 'g' :: (lit "it_full = \"" ++ v ++ ['"'])) = some v := by
    rw [e2, reQuoted_skip (by decide), reQuoted_value]
  rw [e]
  simp only [FileKeywords.line, hs, hq]
  simp [lit]

theorem line_date (k : FileKeywords) (v : Str) : k.line ("    git_date = \"".toList ++ v ++ "\"".toList) =
    { k with date := some v } := by
  have e : "    git_date = \"".toList ++ v ++ "\"".toList = lit "    " ++ 'g' :: (lit "it_date = \"" ++ v ++ ['"']) := by
    simp [lit]
  have e2 : lit "    " ++ 'g' :: (lit "it_date = \"" ++ v ++ ['"']) = lit "    git_date " ++ '=' :: ' ' :: '"' :: (v ++ ['"']) := by
    simp [lit]
  have hs := strip_kw (a := lit "    ") (m := lit "it_date = \"" ++ v) (by decide)
  have hq : reQuoted (lit "    " ++ 'g' :: (lit "it_date = \"" ++ v ++ ['"'])) = some v := by
    rw [e2, reQuoted_skip (by decide), reQuoted_value]
  rw [e]
  simp only [FileKeywords.line, hs, hq]
  simp [lit]

theorem reBetween_none {pre post : Str} : ∀ {s : Str}, ¬ pre <:+: s → reBetween pre post s = none
  | [], _ => rfl
  | c :: s, h => by
    have h1 : ¬ pre.isPrefixOf (c :: s) = true := fun hc => h (List.isPrefixOf_iff_prefix.mp hc).isInfix
    rw [reBetween, if_neg h1]
    exact reBetween_none fun hi => h (hi.trans (List.suffix_cons c s).isInfix)

theorem keywords_source {text : Str} {k : Keywords} (h : SourceFile text k) :
    getKeywords (some text) = ⟨some k.refnames, some k.full, some k.date⟩ := by
  obtain ⟨before, after, rfl, hl, h1, h2, h3, -⟩ := h
  have hm : ∀ l ∈ before ++ after, Mute l := fun l hx =>
    ⟨silent_of_free (hl l hx).2.1, silent_of_free (hl l hx).2.2.1, silent_of_free (hl l hx).2.2.2⟩
  rw [getKeywords]
  have := splitOn_joinLines (before ++ ["    git_refnames = \"".toList ++ k.refnames ++ "\"".toList,
    "    git_full = \"".toList ++ k.full ++ "\"".toList, "    git_date = \"".toList ++ k.date ++ "\"".toList] ++ after) [] (by
      intro l hx
      simp only [List.mem_append, List.mem_cons, List.not_mem_nil, or_false] at hx
      rcases hx with (hx | rfl | rfl | rfl) | hx
      · exact (hl l (by simp [hx])).1
      · simp only [List.mem_append, not_or]; exact ⟨⟨by decide, h1⟩, by decide⟩
      · simp only [List.mem_append, not_or]; exact ⟨⟨by decide, h2⟩, by decide⟩
      · simp only [List.mem_append, not_or]; exact ⟨⟨by decide, h3⟩, by decide⟩
      · exact (hl l (by simp [hx])).1)
  rw [List.append_nil] at this
  rw [this, List.foldl_append, List.foldl_append, List.foldl_append, foldl_mute before _ (fun l hx => hm l (by simp [hx]))]
  simp only [List.foldl_cons, List.foldl_nil, line_refnames, line_full, line_date]
  rw [foldl_mute after _ (fun l hx => hm l (by simp [hx]))]
  rfl

theorem fromFileKeywords_eq (pfx : Str) (k : Keywords) :
    versionsFromFileKeywords pfx ⟨some k.refnames, some k.full, some k.date⟩ = versionsFromKeywords pfx k := by
  simp only [versionsFromFileKeywords, versionsFromKeywords]
  rw [if_neg (by simp)]
  rfl

theorem orElse_dict (x : Except VErr Info) (y : Unit → Except VErr Info) :
    (orElse x y).map Info.dict = orElseD (x.map Info.dict) fun _ => (y ()).map Info.dict := by
  rcases x with (_ | _ | _ | _ | _ | _) | _ <;> rfl

/-! ## Importing a written file -/

/-- a text that stands for itself in a Python literal -/
def Transparent (a : Str) : Prop := ∀ t, pyLiteral .plain (a ++ t) = (pyLiteral .plain t).map (a ++ ·)

theorem Transparent.append {a b : Str} (ha : Transparent a) (hb : Transparent b) : Transparent (a ++ b) := by
  intro t
  rw [List.append_assoc, ha, hb, Option.map_map]
  congr 1
  funext x
  simp

theorem transparent_nil : Transparent [] := fun t => by simp

theorem transparent_snoc {d : Char} (hd : d ≠ '\'') : ∀ (s : Str), '\\' ∉ s ++ [d] → ¬ lit "'''" <:+: s ++ [d] → Transparent (s ++ [d])
  | [], h1, _ => by
    intro t
    have h2 : '\\' ≠ d := by simpa using h1
    have h3 : ¬ (lit "'''").isPrefixOf (d :: t) = true := by simp [lit, List.isPrefixOf, Ne.symm hd]
    rw [List.nil_append, List.cons_append, List.nil_append, pyLiteral, if_neg h3, if_neg (Ne.symm h2)]
    rfl
  | c :: s, h1, h2 => by
    intro t
    rw [List.cons_append, List.mem_cons, not_or] at h1
    have hi : ¬ lit "'''" <:+: s ++ [d] := fun hi => h2 (hi.trans (List.suffix_cons c _).isInfix)
    have h3 : ¬ (lit "'''").isPrefixOf (c :: (s ++ [d] ++ t)) = true := by
      intro hc
      rw [List.isPrefixOf_iff_prefix, ← List.cons_append] at hc
      rcases prefix_append hc with hc | hc
      · exact h2 hc.isInfix
      · have := hc.subset (show d ∈ c :: (s ++ [d]) by simp)
        simp [lit] at this
        exact hd this
    rw [List.cons_append, List.cons_append, pyLiteral, if_neg h3, if_neg (Ne.symm h1.1), transparent_snoc hd s h1.2 hi t,
      Option.map_map]
    rfl

/-- the text `a` of a Python literal stands for `b` -/
def Becomes (a b : Str) : Prop := ∀ t, pyLiteral .plain (a ++ t) = (pyLiteral .plain t).map (b ++ ·)

theorem Becomes.append {a b a' b' : Str} (h : Becomes a b) (h' : Becomes a' b') : Becomes (a ++ a') (b ++ b') := by
  intro t
  rw [List.append_assoc, h, h', Option.map_map]
  congr 1
  funext x
  simp

theorem Transparent.becomes {a : Str} (h : Transparent a) : Becomes a a := h

theorem py_uEscape {c : Char} (h : c.toNat < 65536) (t : Str) :
    pyLiteral .plain (uEscape c.toNat ++ t) = (pyLiteral .plain t).map (c :: ·) := by
  have hc := char_lt c
  generalize hn : c.toNat = n at h hc
  have e : 16 * (16 * (16 * (16 * 0 + n / 4096) + n / 256 % 16) + n / 16 % 16) + n % 16 = n := by omega
  have e' : Char.ofNat n = c := by rw [← hn, Char.ofNat_toNat]
  have hb : (lit "'''").isPrefixOf ('\\' :: 'u' :: hexDigit (n / 4096) :: hexDigit (n / 256 % 16) :: hexDigit (n / 16 % 16) ::
      hexDigit (n % 16) :: t) = false := rfl
  simp only [uEscape, List.cons_append, List.nil_append, pyLiteral, hexVal_hexDigit (show n / 4096 < 16 by omega),
    hexVal_hexDigit (show n / 256 % 16 < 16 by omega), hexVal_hexDigit (show n / 16 % 16 < 16 by omega),
    hexVal_hexDigit (show n % 16 < 16 by omega), e, e', hb]
  simp [show ¬ (55296 ≤ n ∧ n < 57344) by omega]

/-- Python undoes what JSON does to a character of the basic plane -/
theorem py_jsonChar {c : Char} (h : c.toNat < 65536) (hq : c ≠ '\'') (t : Str) :
    pyLiteral .plain (jsonChar c ++ t) = (pyLiteral .plain t).map (c :: ·) := by
  unfold jsonChar
  split_ifs with h1 h2 h3 h4 h5 h6 h7 h8
  · subst h1; rfl
  · subst h2; rfl
  · subst h3; rfl
  · subst h4; rfl
  · subst h5; rfl
  · subst h6; rfl
  · subst h7; rfl
  · have : (lit "'''").isPrefixOf (c :: t) = false := by
      simp [lit, List.isPrefixOf, Ne.symm hq]
    simp only [List.cons_append, List.nil_append, pyLiteral, this, if_neg h2]
    simp
  · exact py_uEscape h t

theorem jsonChar_head (c : Char) : ∃ d s, jsonChar c = d :: s ∧ (d = '\'' → c = '\'') := by
  unfold jsonChar
  split_ifs <;> first | exact ⟨_, _, rfl, fun h => absurd h (by decide)⟩ | exact ⟨_, _, rfl, fun h => h⟩

theorem prefix_json : ∀ (q s r : Str), (∀ c ∈ q, c = '\'') → q <+: s.flatMap jsonChar ++ '"' :: r → q <+: s
  | [], s, r, _, _ => List.nil_prefix
  | c :: q, [], r, h, hp => by
    obtain ⟨t, ht⟩ := hp
    have h0 := h c (by simp)
    have := (List.cons.inj ht).1
    rw [h0] at this
    exact absurd this (by decide)
  | c :: q, d :: s, r, h, hp => by
    have h0 := h c (by simp)
    obtain ⟨x, y, e, hx⟩ := jsonChar_head d
    rw [List.flatMap_cons, e] at hp
    obtain ⟨t, ht⟩ := hp
    have hxc : c = x := (List.cons.inj ht).1
    have hd : d = '\'' := hx (hxc ▸ h0)
    have hy : y = [] := by rw [hd] at e; exact (List.cons.inj e).2.symm
    have ht' := (List.cons.inj ht).2
    rw [hy] at ht'
    obtain ⟨z, hz⟩ := prefix_json q s r (fun c hc => h c (by simp [hc])) ⟨t, ht'⟩
    exact ⟨z, by rw [hd, h0, List.cons_append, hz]⟩

theorem becomes_str : ∀ {s : Str}, (∀ c ∈ s, c.toNat < 65536) → ¬ lit "'''" <:+: s →
    Becomes (s.flatMap jsonChar ++ ['"']) (s ++ ['"'])
  | [], _, _ => fun t => rfl
  | c :: s, h1, h2 => by
    intro t
    have ih := becomes_str (s := s) (fun x hx => h1 x (by simp [hx])) (fun hi => h2 (hi.trans (List.suffix_cons c _).isInfix)) t
    rw [List.flatMap_cons, List.append_assoc, List.append_assoc]
    rw [List.append_assoc] at ih
    by_cases hq : c = '\''
    · subst hq
      have h3 : ¬ (lit "'''").isPrefixOf ('\'' :: (s.flatMap jsonChar ++ (['"'] ++ t))) = true := by
        intro hc
        rw [List.isPrefixOf_iff_prefix] at hc
        exact h2 (prefix_json (lit "'''") ('\'' :: s) t (by decide) hc).isInfix
      rw [show jsonChar '\'' = ['\''] from rfl, List.cons_append, List.nil_append, pyLiteral, if_neg h3, if_neg (by decide), ih,
        Option.map_map]
      rfl
    · rw [py_jsonChar (h1 c (by simp)) hq, ih, Option.map_map]
      rfl

/-- each character by itself -/
def raw (c : Char) : Str := [c]

theorem flatMap_raw (s : Str) : s.flatMap raw = s := by induction s with
  | nil => rfl
  | cons c s ih => rw [List.flatMap_cons, ih]; rfl

/-- no character outside the basic plane, no three apostrophes in a row -/
def Holds (s : Str) : Prop := (∀ c ∈ s, c.toNat < 65536) ∧ ¬ "'''".toList <:+: s

theorem becomes_json {s : Str} (h : Holds s) : Becomes (jsonStr s) (encStr raw s) := by
  have hq : Becomes ['"'] ['"'] := fun t => rfl
  have := hq.append (becomes_str h.1 h.2)
  rw [encStr, flatMap_raw]
  simpa [jsonStr] using this

theorem transparent_lit (s : Str) (d : Char) (hd : d ≠ '\'') (h1 : '\\' ∉ s ++ [d]) (h2 : ¬ lit "'''" <:+: s ++ [d]) :
    Transparent (s ++ [d]) := transparent_snoc hd s h1 h2

theorem becomes_val {v : JVal} (h : ∀ s, v = .str s → Holds s) : Becomes v.dumps (encVal raw v) := by
  cases v with
  | null => exact transparent_lit (lit "nul") 'l' (by decide) (by decide) (by decide)
  | bool b =>
    cases b
    · exact transparent_lit (lit "fals") 'e' (by decide) (by decide) (by decide)
    · exact transparent_lit (lit "tru") 'e' (by decide) (by decide) (by decide)
  | str s => exact becomes_json (h s rfl)

theorem becomes_item {k : Str} {v : JVal} (hk : Holds k) (h : ∀ s, v = .str s → Holds s) :
    Becomes (jsonItem (k, v)) (encItem raw (k, v)) :=
  (((transparent_lit [] ' ' (by decide) (by decide) (by decide)).becomes.append (becomes_json hk)).append
    (transparent_lit [':'] ' ' (by decide) (by decide) (by decide)).becomes).append (becomes_val h)

theorem holds_lit {s : Str} (h : (∀ c ∈ s, c.toNat < 65536) ∧ ¬ "'''".toList <:+: s) : Holds s := h

/-- all texts of the record -/
def Info.Texts (P : Str → Prop) (i : Info) : Prop := P i.version ∧ (∀ s ∈ i.fullRevisionid, P s) ∧ (∀ s ∈ i.error, P s) ∧
  ∀ s ∈ i.date, P s

theorem optStr_texts {P : Str → Prop} {o : Option Str} (ho : ∀ s ∈ o, P s) : ∀ s, optStr o = .str s → P s := by
  intro s hs
  cases o with
  | none => cases hs
  | some t => exact (JVal.str.inj hs) ▸ ho t rfl

theorem becomes_dumps {i : Info} (h : i.Texts Holds) : Becomes i.dumps (i.enc raw) := by
  have e : ∀ f : Str × JVal → Str, lit "{\n" ++ (lit ",\n").intercalate (i.items.map f) ++ lit "\n}" =
      lit "{\n" ++ (f (lit "date", optStr i.date) ++ (lit ",\n" ++ (f (lit "dirty", optBool i.dirty) ++
      (lit ",\n" ++ (f (lit "error", optStr i.error) ++ (lit ",\n" ++ (f (lit "full-revisionid", optStr i.fullRevisionid) ++
      (lit ",\n" ++ (f (lit "version", .str i.version) ++ lit "\n}"))))))))) := by
    intro f
    simp [Info.items, List.intercalate]
  have hc : Becomes (lit ",\n") (lit ",\n") := transparent_lit [','] '\n' (by decide) (by decide) (by decide)
  rw [Info.dumps, Info.enc, e, e]
  refine .append (transparent_lit ['{'] '\n' (by decide) (by decide) (by decide)) (.append ?_ (.append hc (.append ?_
    (.append hc (.append ?_ (.append hc (.append ?_ (.append hc (.append ?_
      (transparent_lit ['\n'] '}' (by decide) (by decide) (by decide)))))))))))
  · exact becomes_item (holds_lit (by decide)) (optStr_texts h.2.2.2)
  · exact becomes_item (holds_lit (by decide)) (by cases i.dirty <;> intro s hs <;> cases hs)
  · exact becomes_item (holds_lit (by decide)) (optStr_texts h.2.2.1)
  · exact becomes_item (holds_lit (by decide)) (optStr_texts h.2.1)
  · exact becomes_item (holds_lit (by decide)) (fun s hs => (JVal.str.inj hs) ▸ h.1)

/-- importing reads the record without escapes as JSON -/
theorem imported_eq {i : Info} (h : i.Texts Holds) : importedVersions i.file = loads ('\n' :: (i.enc raw ++ ['\n'])) := by
  have ha : afterFirst (lit "version_json = '''") i.file = some ('\n' :: (i.dumps ++ ['\n'] ++
      (lit "'''  # END VERSION_JSON" ++ shortOutro))) := by
    rw [file_eq, afterFirst_append intro_noStart.2]
    simp [lit, afterFirst]
  have hnl : Becomes ['\n'] ['\n'] := transparent_lit [] '\n' (by decide) (by decide) (by decide)
  have hp : pyLiteral .plain ('\n' :: (i.dumps ++ ['\n'] ++ (lit "'''  # END VERSION_JSON" ++ shortOutro))) =
      some ('\n' :: (i.enc raw ++ ['\n'])) := by
    have := (hnl.append ((becomes_dumps h).append hnl)) (lit "'''  # END VERSION_JSON" ++ shortOutro)
    rw [show pyLiteral .plain (lit "'''  # END VERSION_JSON" ++ shortOutro) = some [] from rfl] at this
    simpa using this
  rw [importedVersions, ha]
  simp only [hp]

theorem skip_enc_info (e : Char → Str) (i : Info) (r : Str) : skip (i.enc e ++ '\n' :: r) = i.enc e ++ '\n' :: r := by
  rw [enc_eq]; exact skip_cons (by decide)

theorem enc_length (i : Info) : 4 < (i.enc raw).length := by
  simp [Info.enc, List.intercalate, Info.items, encItem, encStr, lit]

theorem reads_raw {s : Str} (h : ∀ c ∈ s, 32 ≤ c.toNat ∧ c.toNat < 65536 ∧ c ≠ '"' ∧ c ≠ '\\') : Reads raw s := by
  intro c hc t
  obtain ⟨h1, h2, h3, h4⟩ := h c hc
  simp only [raw, List.cons_append, List.nil_append, scanString, if_neg h3, if_neg h4, if_neg (show ¬ c.toNat < 32 by omega), units,
    if_pos h2]

theorem imported_file {i : Info} (h : i.Plain) : importedVersions i.file = .ok i.dict := by
  have hh : ∀ {s}, PlainText s → Holds s := fun h => ⟨fun c hc => (h.1 c hc).2.1, h.2⟩
  rw [imported_eq ⟨hh h.1, fun s hs => hh (h.2.1 s hs), fun s hs => hh (h.2.2.1 s hs), fun s hs => hh (h.2.2.2 s hs)⟩]
  refine loads_enc (e := raw) i _ (by rw [skip_nl]; exact skip_enc_info raw i []) (by have := enc_length i; simp; omega) ?_
  have hr : ∀ {s}, PlainText s → Reads raw s := fun h => reads_raw h.1
  have hk : ∀ {s : Str}, (∀ c ∈ s, 32 ≤ c.toNat ∧ c.toNat < 65536 ∧ c ≠ '"' ∧ c ≠ '\\') → Reads raw s := reads_raw
  intro x hx
  simp only [Info.items, List.mem_cons, List.not_mem_nil, or_false] at hx
  rcases hx with rfl | rfl | rfl | rfl | rfl
  · exact ⟨hk (s := lit "date") (by decide), fun s hs => hr (optStr_texts h.2.2.2 s hs)⟩
  · exact ⟨hk (s := lit "dirty") (by decide), by cases i.dirty <;> intro s hs <;> cases hs⟩
  · exact ⟨hk (s := lit "error") (by decide), fun s hs => hr (optStr_texts h.2.2.1 s hs)⟩
  · exact ⟨hk (s := lit "full-revisionid") (by decide), fun s hs => hr (optStr_texts h.2.1 s hs)⟩
  · exact ⟨hk (s := lit "version") (by decide), fun s hs => hr ((JVal.str.inj hs) ▸ h.1)⟩

/-! ## When importing fails -/

theorem scan_length : ∀ (st : Scan) (s : Str) (u : List Nat) (r : Str), scanString st s = some (u, r) →
    ∃ p, s = p ++ '"' :: r ∧ u.length ≤ p.length ∧ (st = .plain → u.length = p.length →
      u = p.map Char.toNat ∧ ∀ c ∈ p, 32 ≤ c.toNat ∧ c ≠ '"' ∧ c ≠ '\\')
  | .plain, [], u, r, h => by simp [scanString] at h
  | .esc, [], u, r, h => by simp [scanString] at h
  | .hex k v, [], u, r, h => by simp [scanString] at h
  | .plain, c :: s, u, r, h => by
    rw [scanString] at h
    split_ifs at h with h1 h2 h3
    · simp only [Option.some.injEq, Prod.mk.injEq] at h
      obtain ⟨rfl, rfl⟩ := h
      exact ⟨[], by rw [h1]; rfl, le_rfl, fun _ _ => ⟨rfl, by simp⟩⟩
    · obtain ⟨p, e, l, -⟩ := scan_length .esc s u r h
      exact ⟨c :: p, by rw [e]; rfl, by simp; omega, fun _ h => by simp at h; omega⟩
    · obtain ⟨⟨u', r'⟩, h', e'⟩ := Option.map_eq_some_iff.mp h
      simp only [Prod.mk.injEq] at e'
      obtain ⟨rfl, rfl⟩ := e'
      obtain ⟨p, e, l, q⟩ := scan_length .plain s u' r' h'
      refine ⟨c :: p, by rw [e]; rfl, by simp; omega, fun _ hl => ?_⟩
      obtain ⟨q1, q2⟩ := q rfl (by simpa using hl)
      refine ⟨by rw [q1]; rfl, fun x hx => ?_⟩
      rcases List.mem_cons.mp hx with rfl | hx
      · exact ⟨by omega, h1, h2⟩
      · exact q2 x hx
  | .esc, c :: s, u, r, h => by
    rw [scanString] at h
    split_ifs at h with h1
    · obtain ⟨p, e, l, -⟩ := scan_length (.hex 3 0) s u r h
      exact ⟨c :: p, by rw [e]; rfl, by simp; omega, fun h => by cases h⟩
    · cases hj : jsonUnescape c with
      | none => rw [hj] at h; simp at h
      | some w =>
        rw [hj] at h
        obtain ⟨⟨u', r'⟩, h', e'⟩ := Option.map_eq_some_iff.mp h
        simp only [Prod.mk.injEq] at e'
        obtain ⟨rfl, rfl⟩ := e'
        obtain ⟨p, e, l, -⟩ := scan_length .plain s u' r' h'
        exact ⟨c :: p, by rw [e]; rfl, by simp; omega, fun h => by cases h⟩
  | .hex k v, c :: s, u, r, h => by
    rw [scanString] at h
    cases hj : hexVal c with
    | none => rw [hj] at h; simp at h
    | some d =>
      rw [hj] at h
      simp only at h
      split_ifs at h with h1
      · obtain ⟨⟨u', r'⟩, h', e'⟩ := Option.map_eq_some_iff.mp h
        simp only [Prod.mk.injEq] at e'
        obtain ⟨rfl, rfl⟩ := e'
        obtain ⟨p, e, l, -⟩ := scan_length .plain s u' r' h'
        exact ⟨c :: p, by rw [e]; rfl, by simp; omega, fun h => by cases h⟩
      · obtain ⟨p, e, l, -⟩ := scan_length _ s u r h
        exact ⟨c :: p, by rw [e]; rfl, by simp; omega, fun h => by cases h⟩

theorem join_length : ∀ (o : Option Nat) (us : List Nat) (w : Str), joinUnits o us = some w → w.length ≤ us.length
  | none, [], w, h => by simp [joinUnits] at h; simp [h]
  | some _, [], w, h => by simp [joinUnits] at h
  | none, u :: us, w, h => by
    rw [joinUnits] at h
    split_ifs at h with h1 h2
    · have := join_length _ _ _ h; simp; omega
    · obtain ⟨x, hx, rfl⟩ := Option.map_eq_some_iff.mp h
      have := join_length _ _ _ hx; simp; omega
  | some g, u :: us, w, h => by
    rw [joinUnits] at h
    split_ifs at h with h1
    obtain ⟨x, hx, rfl⟩ := Option.map_eq_some_iff.mp h
    have := join_length _ _ _ hx; simp; omega

theorem join_map : ∀ (p : Str), joinUnits none (p.map Char.toNat) = some p
  | [] => rfl
  | c :: p => by
    have hc := char_lt c
    rw [List.map_cons, joinUnits, if_neg (by omega), if_neg (by omega), join_map p, Char.ofNat_toNat]
    rfl

theorem parseString_length {s w r : Str} (h : parseString s = some (w, r)) :
    ∃ p, s = p ++ '"' :: r ∧ w.length ≤ p.length ∧ (w.length = p.length → w = p ∧ ∀ c ∈ p, 32 ≤ c.toNat ∧ c ≠ '"' ∧ c ≠ '\\') := by
  obtain ⟨⟨u, r'⟩, h1, h2⟩ := Option.bind_eq_some_iff.mp h
  obtain ⟨w', h3, h4⟩ := Option.map_eq_some_iff.mp h2
  simp only [Prod.mk.injEq] at h4
  obtain ⟨rfl, rfl⟩ := h4
  obtain ⟨p, e, l, q⟩ := scan_length _ _ _ _ h1
  have hl := join_length _ _ _ h3
  refine ⟨p, e, by simp only at hl; omega, fun hw => ?_⟩
  obtain ⟨q1, q2⟩ := q rfl (by simp only at hl; omega)
  simp only at h3
  rw [q1, join_map] at h3
  exact ⟨(Option.some.inj h3).symm, q2⟩

theorem skip_length (s : Str) : (skip s).length ≤ s.length := (List.dropWhile_sublist _).length_le

theorem parseValue_length {s : Str} {v : JVal} {r : Str} (h : parseValue s = some (v, r)) :
    r.length ≤ s.length ∧ ∀ w, v = .str w → w.length + 2 ≤ s.length := by
  unfold parseValue at h
  split_ifs at h with h1
  · obtain ⟨⟨w, r'⟩, h2, h3⟩ := Option.map_eq_some_iff.mp h
    simp only [Prod.mk.injEq] at h3
    obtain ⟨rfl, rfl⟩ := h3
    obtain ⟨p, e, l, -⟩ := parseString_length h2
    have := congrArg List.length e
    simp at this
    refine ⟨by omega, fun w' hw => ?_⟩
    rw [← JVal.str.inj hw]
    omega
  all_goals
    simp only [Option.some.injEq, Prod.mk.injEq] at h
    obtain ⟨rfl, rfl⟩ := h
    exact ⟨by simp, fun w hw => by cases hw⟩

theorem members_length : ∀ (n : Nat) (s : Str) (l : List (Str × JVal)) (r : Str), parseMembers n s = some (l, r) →
    ∀ kv ∈ l, ∀ w, kv.2 = .str w → w.length + 5 ≤ s.length
  | 0, s, l, r, h => by simp [parseMembers] at h
  | n + 1, s, l, r, h => by
    rw [parseMembers] at h
    split_ifs at h with h1
    have s1 := skip_length s
    obtain ⟨⟨k, r1⟩, hk, h⟩ := Option.bind_eq_some_iff.mp h
    obtain ⟨p, e, -, -⟩ := parseString_length hk
    have e := congrArg List.length e
    simp at e
    simp only at h
    split_ifs at h with h2
    have s2 := skip_length r1
    obtain ⟨⟨v, r2⟩, hv, h⟩ := Option.bind_eq_some_iff.mp h
    obtain ⟨l1, l2⟩ := parseValue_length hv
    have s3 := skip_length ((skip r1).drop 1)
    have s4 : 1 ≤ (skip r1).length := by
      rw [List.isPrefixOf_iff_prefix] at h2
      exact h2.length_le
    have s5 : 1 ≤ (skip s).length := by
      rw [List.isPrefixOf_iff_prefix] at h1
      exact h1.length_le
    simp only [List.length_drop] at s3
    simp only at h
    have hw : ∀ w, v = .str w → w.length + 5 ≤ s.length := fun w hw => by have := l2 w hw; omega
    split_ifs at h with h3 h4
    · obtain ⟨⟨l', r'⟩, h5, h6⟩ := Option.map_eq_some_iff.mp h
      simp only [Prod.mk.injEq] at h6
      obtain ⟨rfl, rfl⟩ := h6
      intro kv hkv w he
      rcases List.mem_cons.mp hkv with rfl | hkv
      · exact hw w he
      · have := members_length n _ l' r' h5 kv hkv w he
        have s6 := skip_length r2
        simp only [List.length_drop] at this
        omega
    · simp only [Option.some.injEq, Prod.mk.injEq] at h
      obtain ⟨rfl, rfl⟩ := h
      intro kv hkv w he
      rcases List.mem_cons.mp hkv with rfl | hkv
      · exact hw w he
      · simp at hkv

/-- one line whose texts are read back, and the rest -/
theorem members_cons {e : Char → Str} {kv : Str × JVal} (hk : Reads e kv.1) (hv : ReadsVal e kv.2) (n : Nat) (r : Str) :
    parseMembers (n + 1) ('\n' :: (encItem e kv ++ ',' :: r)) = (parseMembers n r).map fun x => (kv :: x.1, x.2) := by
  have e : ('\n' :: (encItem e kv ++ ',' :: r)) =
      '\n' :: ' ' :: '"' :: (kv.1.flatMap e ++ '"' :: (':' :: ' ' :: (encVal e kv.2 ++ ',' :: r))) := by
    simp [encItem, encStr, lit]
  rw [e]
  simp only [parseMembers, skip_nl, skip_space, skip_cons (show jsonSpace '"' = false by decide)]
  simp only [q_lit, colon_lit, comma_lit, close_lit, List.isPrefixOf, List.drop_succ_cons, List.drop_zero, parse_reads hk, Option.bind_some,
    skip_cons (show jsonSpace ':' = false by decide), skip_space, skip_enc, parse_val hv, skip_nl,
    skip_cons (show jsonSpace ',' = false by decide)]
  simp

/-- the last line: if a value of this length comes out, it was written without escapes -/
theorem members_last {k V : Str} (hk : Reads raw k) {n : Nat} {l : List (Str × JVal)} {r : Str}
    (h : parseMembers n ('\n' :: (encItem raw (k, .str V) ++ lit "\n}\n")) = some (l, r)) {kv : Str × JVal} (hm : kv ∈ l)
    (hv : kv.2 = .str V) : ∀ c ∈ V, 32 ≤ c.toNat ∧ c ≠ '"' ∧ c ≠ '\\' := by
  cases n with
  | zero => simp [parseMembers] at h
  | succ n =>
    have e : ('\n' :: (encItem raw (k, .str V) ++ lit "\n}\n")) =
        '\n' :: ' ' :: '"' :: (k.flatMap raw ++ '"' :: (':' :: ' ' :: '"' :: (V ++ '"' :: lit "\n}\n"))) := by
      simp [encItem, encStr, encVal, lit, flatMap_raw]
    rw [e] at h
    simp only [parseMembers, skip_nl, skip_space, skip_cons (show jsonSpace '"' = false by decide)] at h
    simp only [q_lit, colon_lit, comma_lit, close_lit, List.isPrefixOf, List.drop_succ_cons, List.drop_zero, parse_reads hk, Option.bind_some,
      skip_cons (show jsonSpace ':' = false by decide), skip_space, skip_cons (show jsonSpace '"' = false by decide)] at h
    simp only [beq_self_eq_true, Bool.and_true, if_true, parseValue, q_lit, List.isPrefixOf, List.drop_succ_cons, List.drop_zero] at h
    obtain ⟨⟨v, r2⟩, hp, h⟩ := Option.bind_eq_some_iff.mp h
    obtain ⟨⟨w, r3⟩, hps, hw⟩ := Option.map_eq_some_iff.mp hp
    simp only [Prod.mk.injEq] at hw
    obtain ⟨rfl, rfl⟩ := hw
    obtain ⟨p, ep, lp, q⟩ := parseString_length hps
    simp only at h
    have el := congrArg List.length ep
    simp [lit] at el
    -- the first value
    have first : w = V → ∀ c ∈ V, 32 ≤ c.toNat ∧ c ≠ '"' ∧ c ≠ '\\' := by
      rintro rfl
      by_cases hl : w.length = p.length
      · obtain ⟨q1, q2⟩ := q hl
        rw [q1]; exact q2
      · exfalso
        have e1 : p = w ++ p.drop w.length := by
          have := congrArg (List.take w.length) ep
          rw [List.take_append_of_le_length (by omega), List.take_append_of_le_length (by omega), List.take_length] at this
          conv_lhs => rw [← List.take_append_drop w.length p, ← this]
        obtain ⟨c0, z, hz⟩ : ∃ c0 z, p.drop w.length = c0 :: z := by
          cases hd : p.drop w.length with
          | nil => have := congrArg List.length hd; simp at this; omega
          | cons a b => exact ⟨a, b, rfl⟩
        rw [e1, hz, List.append_assoc, List.append_cancel_left_eq, List.cons_append, List.cons.injEq] at ep
        have hm : '"' ∈ lit "\n}\n" := by rw [ep.2]; simp
        revert hm; decide
    replace h : (if (lit ",").isPrefixOf (skip r3) = true then
      Option.map (fun r => ((k, JVal.str w) :: r.1, r.2)) (parseMembers n (List.drop 1 (skip r3)))
      else if (lit "}").isPrefixOf (skip r3) = true then some ([(k, JVal.str w)], List.drop 1 (skip r3)) else none) =
      some (l, r) := h
    split at h
    · obtain ⟨⟨l', r'⟩, h5, h6⟩ := Option.map_eq_some_iff.mp h
      simp only [Prod.mk.injEq] at h6
      obtain ⟨rfl, rfl⟩ := h6
      rcases List.mem_cons.mp hm with rfl | hm
      · exact first (JVal.str.inj hv)
      · have := members_length n _ l' r' h5 kv hm V hv
        have s6 := skip_length r3
        simp only [List.length_drop] at this
        omega
    · split at h
      · simp only [Option.some.injEq, Prod.mk.injEq] at h
        obtain ⟨rfl, rfl⟩ := h
        rcases List.mem_cons.mp hm with rfl | hm
        · exact first (JVal.str.inj hv)
        · simp at hm
      · simp at h

theorem imported_iff {i : Info} (hv : Holds i.version) (h : (∀ s ∈ i.fullRevisionid, PlainText s) ∧ (∀ s ∈ i.error, PlainText s) ∧
    ∀ s ∈ i.date, PlainText s) : importedVersions i.file = .ok i.dict ↔ PlainText i.version := by
  refine ⟨fun hi => ?_, fun hp => imported_file ⟨hp, h⟩⟩
  have hh : ∀ {s}, PlainText s → Holds s := fun h => ⟨fun c hc => (h.1 c hc).2.1, h.2⟩
  have hr : ∀ {s}, PlainText s → Reads raw s := fun h => reads_raw h.1
  have hk : ∀ {s : Str}, (∀ c ∈ s, 32 ≤ c.toNat ∧ c.toNat < 65536 ∧ c ≠ '"' ∧ c ≠ '\\') → Reads raw s := reads_raw
  rw [imported_eq ⟨hv, fun s hs => hh (h.1 s hs), fun s hs => hh (h.2.1 s hs), fun s hs => hh (h.2.2 s hs)⟩] at hi
  unfold loads at hi
  rw [skip_nl, skip_enc_info raw i [], if_pos (by rw [enc_eq]; rfl)] at hi
  have hq : skip ((i.enc raw ++ ['\n']).drop 1) = '"' :: (skip ((i.enc raw ++ ['\n']).drop 1)).tail := by
    simp [Info.enc, List.intercalate, Info.items, encItem, encStr, lit, skip_nl, skip_space,
      skip_cons (show jsonSpace '"' = false by decide)]
  rw [hq, if_neg (by simp [lit])] at hi
  have hl : ∃ m, ('\n' :: (i.enc raw ++ ['\n'])).length = m + 4 :=
    ⟨('\n' :: (i.enc raw ++ ['\n'])).length - 4, by have := enc_length i; simp; omega⟩
  obtain ⟨m, hm⟩ := hl
  rw [hm] at hi
  have e : (i.enc raw ++ ['\n']).drop 1 = '\n' :: (encItem raw (lit "date", optStr i.date) ++ ',' ::
      ('\n' :: (encItem raw (lit "dirty", optBool i.dirty) ++ ',' :: ('\n' :: (encItem raw (lit "error", optStr i.error) ++ ',' ::
        ('\n' :: (encItem raw (lit "full-revisionid", optStr i.fullRevisionid) ++ ',' ::
          ('\n' :: (encItem raw (lit "version", .str i.version) ++ lit "\n}\n"))))))))) := by
    simp [Info.enc, Info.items, List.intercalate, lit]
  rw [e, members_cons (hk (s := lit "date") (by decide)) (fun s hs => hr (optStr_texts h.2.2 s hs)),
    members_cons (hk (s := lit "dirty") (by decide)) (by cases i.dirty <;> intro s hs <;> cases hs),
    members_cons (hk (s := lit "error") (by decide)) (fun s hs => hr (optStr_texts h.2.1 s hs)),
    members_cons (hk (s := lit "full-revisionid") (by decide)) (fun s hs => hr (optStr_texts h.1 s hs))] at hi
  cases hp : parseMembers m ('\n' :: (encItem raw (lit "version", .str i.version) ++ lit "\n}\n")) with
  | none => rw [hp] at hi; simp at hi
  | some x =>
    obtain ⟨l, r⟩ := x
    rw [hp] at hi
    simp only [Option.map_some] at hi
    split_ifs at hi
    have hd := congrFun (Except.ok.inj hi) (lit "version")
    have hd : Dict.ofList _ (lit "version") = some (.str i.version) := hd
    rw [Dict.ofList, Option.map_eq_some_iff] at hd
    obtain ⟨kv, h1, h2⟩ := hd
    have h3 := List.find?_some h1
    have h4 := List.mem_of_find?_eq_some h1
    simp only [decide_eq_true_eq] at h3
    simp only [List.mem_reverse, List.mem_cons] at h4
    have hkv : kv ∈ l := by
      rcases h4 with rfl | rfl | rfl | rfl | h4
      · exact absurd h3 (show lit "date" ≠ lit "version" by decide)
      · exact absurd h3 (show lit "dirty" ≠ lit "version" by decide)
      · exact absurd h3 (show lit "error" ≠ lit "version" by decide)
      · exact absurd h3 (show lit "full-revisionid" ≠ lit "version" by decide)
      · exact h4
    have := members_last (hk (s := lit "version") (by decide)) hp hkv h2
    exact ⟨fun c hc => ⟨(this c hc).1, hv.1 c hc, (this c hc).2⟩, hv.2⟩

end TwoLayer.Version
