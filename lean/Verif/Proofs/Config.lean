import Verif.Spec.Config
import Verif.Props.Installer
import Mathlib.Data.List.TakeWhile
import Mathlib.Tactic.Linarith

set_option linter.unusedSimpArgs false

/-!
# `setup.cfg`: lemmas for C120
-/

namespace TwoLayer.Version

/-! ## what one line does, apart from the options and sections there are -/

/-- what a line is -/
inductive LAct where
  | skip
  | more (v : Str)
  | header (h : Str) (ind : Nat)
  | option (c o x : Str) (ind : Nat)
  | bad (ind : Nat)
  | orphan

/-- what a line is -/
def lineAct (cur : Option Str) (cont : Bool) (indent : Nat) (line : Str) : LAct :=
  let v := strip line
  if v.head? = some '#' ∨ v.head? = some ';' then .skip
  else if v = [] then (if cont then .more [] else .skip)
  else
    let ind := (line.takeWhile isSpace).length
    if cont = true ∧ indent < ind then .more v
    else match header? v with
      | some h => .header h ind
      | none =>
        match cur with
        | none => .orphan
        | some c =>
          match option? v with
          | none => .bad ind
          | some (o, x) => .option c o x ind

/-- what it does -/
def LAct.apply (s : CfgState) : LAct → Except CfgErr CfgState
  | .skip => .ok s
  | .more v => .ok { s with opts := addLine v s.opts }
  | .header h ind =>
    if h = defaultSec then .ok { s with cur := some h, cont := false, indent := ind }
    else if h ∈ s.secs then .error .parsing
    else .ok { s with secs := h :: s.secs, cur := some h, cont := false, indent := ind }
  | .option c o x ind =>
    if s.opts.any (fun e => e.sec = c && e.opt = o) then .error .parsing
    else .ok { s with
      opts := ⟨c, o, [x]⟩ :: s.opts, cont := !o.isEmpty, indent := ind, bad := s.bad || o.isEmpty }
  | .bad ind => .ok { s with indent := ind, bad := true }
  | .orphan => .error .parsing

theorem cfgLine_eq (s : CfgState) (l : Str) : cfgLine s l = (lineAct s.cur s.cont s.indent l).apply s := by
  obtain ⟨secs, opts, cur, cont, indent, bad⟩ := s
  unfold cfgLine lineAct
  simp only
  split_ifs with h1 h2 h3 h4
  · rfl
  · rfl
  · rfl
  · rfl
  · cases header? (strip l) with
    | some h => rfl
    | none =>
      cases cur with
      | none => rfl
      | some c =>
        cases option? (strip l) with
        | none => rfl
        | some p => rfl

theorem lineAct_more {cur : Option Str} {cont : Bool} {indent : Nat} {l v : Str} (h : lineAct cur cont indent l = .more v) :
    cont = true := by
  unfold lineAct at h
  simp only at h
  split_ifs at h with h1 h2 h3 h4
  · exact h3
  · exact h4.1
  · revert h
    cases header? (strip l) with
    | some h => simp
    | none =>
      cases cur with
      | none => simp
      | some c =>
        cases option? (strip l) with
        | none => simp
        | some p => simp

theorem lineAct_option {cur : Option Str} {cont : Bool} {indent ind : Nat} {l c o x : Str}
    (h : lineAct cur cont indent l = .option c o x ind) : cur = some c := by
  unfold lineAct at h
  simp only at h
  split_ifs at h with h1 h2 h3 h4
  revert h
  cases header? (strip l) with
  | some h => simp
  | none =>
    cases cur with
    | none => simp
    | some c =>
      cases option? (strip l) with
      | none => simp
      | some p => simp; intro h _ _ _; exact h

theorem cfgLines_append (s : CfgState) (a b : List Str) :
    cfgLines s (a ++ b) = match cfgLines s a with
      | .ok s' => cfgLines s' b
      | .error e => .error e := by
  induction a generalizing s with
  | nil => rfl
  | cons l a ih =>
    rw [List.cons_append, cfgLines, cfgLines]
    cases cfgLine s l with
    | ok s' => exact ih s'
    | error e => rfl

theorem cfgLines_append_ok {s t : CfgState} {a b : List Str} (h : cfgLines s (a ++ b) = .ok t) :
    ∃ u, cfgLines s a = .ok u ∧ cfgLines u b = .ok t := by
  rw [cfgLines_append] at h
  cases hu : cfgLines s a with
  | ok u => rw [hu] at h; exact ⟨u, rfl, h⟩
  | error e => rw [hu] at h; cases h

theorem cfgLines_cons_ok {s t : CfgState} {l : Str} {b : List Str} (h : cfgLines s (l :: b) = .ok t) :
    ∃ u, cfgLine s l = .ok u ∧ cfgLines u b = .ok t := by
  rw [cfgLines] at h
  cases hu : cfgLine s l with
  | ok u => rw [hu] at h; exact ⟨u, rfl, h⟩
  | error e => rw [hu] at h; cases h

theorem cfgLines_error {s : CfgState} {ls : List Str} {e : CfgErr} (h : cfgLines s ls = .error e) : e = .parsing := by
  induction ls generalizing s with
  | nil => cases h
  | cons l ls ih =>
    rw [cfgLines] at h
    cases hl : cfgLine s l with
    | ok s' => rw [hl] at h; exact ih h
    | error e' =>
      rw [hl] at h
      cases h
      rw [cfgLine_eq] at hl
      cases ha : lineAct s.cur s.cont s.indent l <;> rw [ha] at hl <;> simp only [LAct.apply] at hl <;> (try split_ifs at hl) <;>
        cases hl <;> rfl

theorem cfgLines_step {s s' : CfgState} {l : Str} {ls : List Str} {r : Except CfgErr CfgState} (h : cfgLine s l = .ok s')
    (h' : cfgLines s' ls = r) : cfgLines s (l :: ls) = r := by
  rw [cfgLines, h]; exact h'

/-! ## white space -/

theorem dropWhile_nl (l : Str) : ((l ++ ['\n']).reverse.dropWhile isSpace) = l.reverse.dropWhile isSpace := by
  rw [List.reverse_append]
  rfl

theorem strip_nl (l : Str) : strip (l ++ ['\n']) = strip l := by
  unfold strip stripBy
  by_cases h : ∀ c ∈ l, isSpace c = true
  · have e1 : l.dropWhile isSpace = [] := List.dropWhile_eq_nil_iff.mpr h
    have e2 : (l ++ ['\n']).dropWhile isSpace = [] := by
      refine List.dropWhile_eq_nil_iff.mpr fun c hc => ?_
      rcases List.mem_append.mp hc with hc | hc
      · exact h c hc
      · rw [List.mem_singleton.mp hc]; rfl
    rw [e1, e2]
  · have e : (l ++ ['\n']).dropWhile isSpace = l.dropWhile isSpace ++ ['\n'] := by
      induction l with
      | nil => exact absurd (fun c hc => absurd hc (List.not_mem_nil)) h
      | cons c l ih =>
        rw [List.cons_append, List.dropWhile_cons, List.dropWhile_cons]
        split_ifs with hc
        · exact ih fun h' => h fun d hd => by
            rcases List.mem_cons.mp hd with rfl | hd
            · exact hc
            · exact h' d hd
        · rfl
    rw [e, dropWhile_nl]

theorem strip_nil_iff {l : Str} : strip l = [] ↔ ∀ c ∈ l, isSpace c = true := by
  unfold strip stripBy
  rw [List.reverse_eq_nil_iff, List.dropWhile_eq_nil_iff]
  constructor
  · intro h c hc
    by_contra hn
    have : l.dropWhile isSpace ≠ [] := fun h' => hn (List.dropWhile_eq_nil_iff.mp h' c hc)
    have hh : ¬ isSpace ((l.dropWhile isSpace).head this) = true := by
      simpa using List.head_dropWhile_not isSpace this
    exact hh (h _ (List.mem_reverse.mpr (List.head_mem this)))
  · intro h c hc
    rw [List.dropWhile_eq_nil_iff.mpr h] at hc
    cases hc

theorem takeWhile_nl {l : Str} (h : strip l ≠ []) : (l ++ ['\n']).takeWhile isSpace = l.takeWhile isSpace := by
  rw [Ne, strip_nil_iff] at h
  induction l with
  | nil => exact absurd (fun c hc => absurd hc (List.not_mem_nil)) h
  | cons c l ih =>
    rw [List.cons_append, List.takeWhile_cons, List.takeWhile_cons]
    split_ifs with hc
    · rw [ih fun h' => h fun d hd => by
        rcases List.mem_cons.mp hd with rfl | hd
        · exact hc
        · exact h' d hd]
    · rfl

theorem cfgLine_nl (s : CfgState) (l : Str) : cfgLine s (l ++ ['\n']) = cfgLine s l := by
  rw [cfgLine_eq, cfgLine_eq]
  congr 1
  unfold lineAct
  simp only [strip_nl]
  by_cases h : strip l = []
  · simp [h]
  · simp only [takeWhile_nl h]

theorem pyLines_nl (t : Str) : pyLines (t ++ ['\n']) = pyLines t ++ [['\n']] ∨
    ∃ ls l, pyLines t = ls ++ [l] ∧ pyLines (t ++ ['\n']) = ls ++ [l ++ ['\n']] := by
  induction t with
  | nil => left; rfl
  | cons c t ih =>
    rw [List.cons_append, pyLines, pyLines]
    by_cases hc : c = '\n'
    · rw [if_pos hc, if_pos hc]
      rcases ih with ih | ⟨ls, l, h1, h2⟩
      · left; rw [ih]; rfl
      · right; exact ⟨[c] :: ls, l, by rw [h1]; rfl, by rw [h2]; rfl⟩
    · rw [if_neg hc, if_neg hc]
      rcases ih with ih | ⟨ls, l, h1, h2⟩
      · rw [ih]
        cases ht : pyLines t with
        | nil => exact .inr ⟨[], [c], rfl, rfl⟩
        | cons x xs => left; rfl
      · rw [h1, h2]
        cases ls with
        | nil => exact .inr ⟨[], c :: l, rfl, rfl⟩
        | cons x xs => exact .inr ⟨(c :: x) :: xs, l, rfl, rfl⟩

/-- an empty line -/
def blank (s : CfgState) : CfgState := if s.cont then { s with opts := addLine [] s.opts } else s

theorem cfgLine_empty (s : CfgState) : cfgLine s ['\n'] = .ok (blank s) := rfl

/-- a text, the newline that ends its last line or is a line of its own, and more -/
theorem cfgLines_more {s : CfgState} {t : Str} (u : Str) (h : cfgLines {} (pyLines t) = .ok s) :
    ∃ s', (s' = s ∨ s' = blank s) ∧ cfgLines {} (pyLines (t ++ '\n' :: u)) = cfgLines s' (pyLines u) := by
  rw [pyLines_newline, cfgLines_append]
  rcases pyLines_nl t with e | ⟨ls, l, e1, e2⟩
  · rw [e, cfgLines_append, h]
    exact ⟨blank s, .inr rfl, rfl⟩
  · have : cfgLines {} (ls ++ [l ++ ['\n']]) = cfgLines {} (ls ++ [l]) := by
      rw [cfgLines_append, cfgLines_append]
      cases cfgLines {} ls with
      | error e => rfl
      | ok s1 => simp only [cfgLines, cfgLine_nl]
    rw [e2, this, ← e1, h]
    exact ⟨s, .inl rfl, rfl⟩

/-! ## values -/

theorem rstrip_nl (l : Str) : rstrip (l ++ ['\n']) = rstrip l := by
  unfold rstrip; rw [dropWhile_nl]

theorem joinValue_blank : ∀ ls : List Str, rstrip (joinValue (ls ++ [[]])) = rstrip (joinValue ls)
  | [] => rfl
  | [l] => by
    show rstrip (l ++ ['\n']) = rstrip l
    exact rstrip_nl l
  | l :: m :: ls => by
    have : ∀ ls, ls ≠ [] → joinValue (ls ++ [[]]) = joinValue ls ++ ['\n'] := by
      intro ls
      induction ls with
      | nil => intro h; exact absurd rfl h
      | cons a ls ih =>
        intro _
        cases ls with
        | nil => rfl
        | cons b ls =>
          show a ++ '\n' :: joinValue ((b :: ls) ++ [[]]) = (a ++ '\n' :: joinValue (b :: ls)) ++ ['\n']
          rw [ih (by simp)]; simp
    rw [this _ (by simp), rstrip_nl]

/-- what is read of an entry -/
def entryValue (e : CfgEntry) : Str := rstrip (joinValue e.lines)

/-- the entry of an option -/
def findOpt (sec opt : Str) (l : List CfgEntry) : Option CfgEntry := l.find? fun e => e.sec = sec && e.opt = opt

theorem value_eq (s : CfgState) (sec opt : Str) : s.value sec opt =
    ((findOpt sec (lower opt) s.opts).map entryValue).or ((findOpt defaultSec (lower opt) s.opts).map entryValue) := by
  unfold CfgState.value findOpt
  rw [Option.map_or]
  rfl

theorem find_blank (sec opt : Str) (l : List CfgEntry) :
    (findOpt sec opt (addLine [] l)).map entryValue = (findOpt sec opt l).map entryValue := by
  cases l with
  | nil => rfl
  | cons e es =>
    unfold findOpt addLine
    rw [List.find?_cons, List.find?_cons]
    split <;> rename_i h <;> simp only at h <;> rw [h]
    simp only [Option.map_some, entryValue, joinValue_blank]

theorem value_blank (s : CfgState) (sec opt : Str) : (blank s).value sec opt = s.value sec opt := by
  unfold blank
  split_ifs with h
  · rw [value_eq, value_eq]; simp only [find_blank]
  · rfl

theorem findOpt_append (sec opt : Str) (a b : List CfgEntry) :
    findOpt sec opt (a ++ b) = (findOpt sec opt a).or (findOpt sec opt b) := List.find?_append

theorem findOpt_none {sec : Str} {l : List CfgEntry} (h : ∀ e ∈ l, e.sec ≠ sec) (opt : Str) : findOpt sec opt l = none := by
  unfold findOpt
  rw [List.find?_eq_none]
  intro e he
  simp [h e he]

/-! ## what `config` looks at -/

theorem get_congr {s s' : CfgState} {sec : Str} (h : sec ∈ s.secs ↔ sec ∈ s'.secs) (opt : Str) (h' : s.value sec opt = s'.value sec opt) :
    s.get sec opt = s'.get sec opt := by
  unfold CfgState.get
  rw [h']; simp only [h]

theorem config_congr {s s' : CfgState} (h : versioneerSec ∈ s.secs ↔ versioneerSec ∈ s'.secs)
    (h' : ∀ opt, s.value versioneerSec opt = s'.value versioneerSec opt) : s.config = s'.config := by
  have g : ∀ opt, s.get versioneerSec opt = s'.get versioneerSec opt := fun opt => get_congr h opt (h' opt)
  have g? : ∀ opt, s.get? versioneerSec opt = s'.get? versioneerSec opt := fun opt => by
    unfold CfgState.get?
    rw [g, h']; simp only [h]
  unfold CfgState.config
  simp only [g, g?]

theorem get_present {s : CfgState} {sec : Str} (h : sec ∈ s.secs) (opt : Str) :
    s.get sec opt ≠ .error .noSection ∧ s.get sec opt ≠ .error .noFile := by
  unfold CfgState.get
  rw [if_pos h]
  split
  · split_ifs <;> simp
  · simp

theorem get?_present {s : CfgState} {sec : Str} (h : sec ∈ s.secs) (opt : Str) :
    s.get? sec opt ≠ .error .noSection ∧ s.get? sec opt ≠ .error .noFile := by
  have := get_present h opt
  unfold CfgState.get?
  split_ifs
  · cases hg : s.get sec opt with
    | ok v => simp [Except.map]
    | error e =>
      rw [hg] at this
      simpa [Except.map] using this
  · simp

theorem config_present {s : CfgState} (h : versioneerSec ∈ s.secs) :
    s.config ≠ .error .noSection ∧ s.config ≠ .error .noFile := by
  have bindE : ∀ {β γ : Type} {x : Except CfgErr β} {f : β → Except CfgErr γ}, (x ≠ .error .noSection ∧ x ≠ .error .noFile) →
      (∀ b, f b ≠ .error .noSection ∧ f b ≠ .error .noFile) → (x >>= f) ≠ .error .noSection ∧ (x >>= f) ≠ .error .noFile := by
    intro β γ x f hx hf
    cases x with
    | ok b => exact hf b
    | error e => 
      constructor
      · intro h; exact hx.1 (by cases h; rfl)
      · intro h; exact hx.2 (by cases h; rfl)
  unfold CfgState.config
  refine bindE (get_present h _) fun _ => bindE (get?_present h _) fun _ => bindE (get?_present h _) fun _ =>
    bindE (get?_present h _) fun _ => bindE (get?_present h _) fun _ => bindE (get?_present h _) fun _ =>
    bindE (get?_present h _) fun _ => ⟨?_, ?_⟩ <;> intro h <;> cases h

theorem config_absent {s : CfgState} (h : versioneerSec ∉ s.secs) : s.config = .error .noSection := by
  unfold CfgState.config CfgState.get
  rw [if_neg h]; rfl

end TwoLayer.Version
