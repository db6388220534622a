import Verif.Proofs.Config

set_option linter.unusedSimpArgs false

/-!
# `setup.cfg`: the sample section, other sections, and sections written by hand
-/

namespace TwoLayer.Version

/-! ## the installer -/

/-- the sample section after its first newline -/
theorem sample_lines : ∃ u, sampleConfig = '\n' :: u ∧ pyLines u = [
    lit "# See the docstring in versioneer.py for instructions. Note that you must\n",
    lit "# re-run 'versioneer.py setup' after changing this section, and commit the\n",
    lit "# resulting files.\n", ['\n'], lit "[versioneer]\n", lit "#VCS = git\n", lit "#style = pep440\n",
    lit "#versionfile_source =\n", lit "#versionfile_build =\n", lit "#tag_prefix =\n", lit "#parentdir_prefix =\n", ['\n']] :=
  ⟨sampleConfig.tail, by decide +kernel, by decide +kernel⟩

theorem cfgLine_comment (s : CfgState) {l : Str} (h : (strip l).head? = some '#') : cfgLine s l = .ok s := by
  unfold cfgLine
  simp only
  rw [if_pos (.inl h)]

theorem default_ne : defaultSec ≠ versioneerSec := by decide +kernel

/-- the state after the header of the section -/
def entered (s : CfgState) : CfgState :=
  { s with secs := versioneerSec :: s.secs, cur := some versioneerSec, cont := false, indent := 0 }

theorem cfgLine_header (s : CfgState) :
    cfgLine s (lit "[versioneer]\n") = if versioneerSec ∈ s.secs then .error .parsing else .ok (entered s) := by
  have ha : ∀ cur cont indent, lineAct cur cont indent (lit "[versioneer]\n") = .header versioneerSec 0 := by
    intro cur cont indent
    have h1 : strip (lit "[versioneer]\n") = lit "[versioneer]" := by decide +kernel
    have h2 : header? (lit "[versioneer]") = some versioneerSec := by decide +kernel
    have h3 : ((lit "[versioneer]\n").takeWhile isSpace).length = 0 := by decide +kernel
    unfold lineAct
    simp only [h1, h2, h3]
    rw [if_neg (by decide +kernel), if_neg (by decide +kernel), if_neg (by simp)]
  rw [cfgLine_eq, ha]
  simp only [LAct.apply]
  rw [if_neg fun h => default_ne h.symm]
  rfl

theorem blank_fields (s : CfgState) : (blank s).secs = s.secs ∧ (blank s).bad = s.bad ∧ (blank s).cur = s.cur := by
  unfold blank; split_ifs <;> exact ⟨rfl, rfl, rfl⟩

theorem blank_entered (s : CfgState) : blank (entered s) = entered s := rfl

theorem entered_value (s : CfgState) (sec opt : Str) : (entered s).value sec opt = s.value sec opt := rfl

theorem cfgParse_ok {t : Str} {s : CfgState} (h : cfgParse t = .ok s) : cfgLines {} (pyLines t) = .ok s ∧ s.bad = false := by
  unfold cfgParse at h
  cases hl : cfgLines {} (pyLines t) with
  | error e => rw [hl] at h; cases h
  | ok s' =>
    rw [hl] at h
    simp only at h
    split_ifs at h with hb
    cases h
    exact ⟨rfl, by simpa using hb⟩

theorem cfgParse_of {t : Str} {s : CfgState} (h : cfgLines {} (pyLines t) = .ok s) (hb : s.bad = false) : cfgParse t = .ok s := by
  unfold cfgParse
  rw [h]
  simp [hb]

/-- a file without the section, and the sample: it is read, it has the section, and all else is as it was -/
theorem sample_parse {t : Str} {s : CfgState} (h : cfgParse t = .ok s) (hv : versioneerSec ∉ s.secs) :
    ∃ s', cfgParse (t ++ sampleConfig) = .ok s' ∧ s'.secs = versioneerSec :: s.secs ∧
      ∀ sec opt, s'.value sec opt = s.value sec opt := by
  obtain ⟨h1, hb⟩ := cfgParse_ok h
  obtain ⟨u, hu, hl⟩ := sample_lines
  obtain ⟨s', hs', he⟩ := cfgLines_more u h1
  rw [← hu, hl] at he
  have hsec : s'.secs = s.secs ∧ s'.bad = s.bad ∧ ∀ sec opt, s'.value sec opt = s.value sec opt := by
    rcases hs' with rfl | rfl
    · exact ⟨rfl, rfl, fun _ _ => rfl⟩
    · exact ⟨(blank_fields s).1, (blank_fields s).2.1, value_blank s⟩
  have hv' : versioneerSec ∉ (blank s').secs := by rw [(blank_fields s').1, hsec.1]; exact hv
  have hr : cfgLines {} (pyLines (t ++ sampleConfig)) = .ok (entered (blank s')) := by
    rw [he]
    refine cfgLines_step (cfgLine_comment _ (by decide +kernel)) <| cfgLines_step (cfgLine_comment _ (by decide +kernel)) <|
      cfgLines_step (cfgLine_comment _ (by decide +kernel)) <| cfgLines_step (cfgLine_empty s') <|
      cfgLines_step ((cfgLine_header _).trans (if_neg hv')) <|
      cfgLines_step (cfgLine_comment _ (by decide +kernel)) <| cfgLines_step (cfgLine_comment _ (by decide +kernel)) <|
      cfgLines_step (cfgLine_comment _ (by decide +kernel)) <| cfgLines_step (cfgLine_comment _ (by decide +kernel)) <|
      cfgLines_step (cfgLine_comment _ (by decide +kernel)) <| cfgLines_step (cfgLine_comment _ (by decide +kernel)) <|
      cfgLines_step (cfgLine_empty _) rfl
  refine ⟨entered (blank s'), cfgParse_of hr ?_, ?_, fun sec opt => ?_⟩
  · show (blank s').bad = false
    rw [(blank_fields s').2.1, hsec.2.1, hb]
  · show versioneerSec :: (blank s').secs = _
    rw [(blank_fields s').1, hsec.1]
  · rw [entered_value, value_blank, hsec.2.2]

/-! ## other sections -/

/-- the state after a section of one's own, up to what came before it -/
structure Same (o o' : List CfgEntry) (p : List CfgEntry) (s s' : CfgState) : Prop where
  opts : s.opts = p ++ o
  opts' : s'.opts = p ++ o'
  cur : s.cur = s'.cur
  cont : s.cont = s'.cont
  indent : s.indent = s'.indent
  ne : s.cont = true → p ≠ []
  sec : versioneerSec ∈ s.secs
  sec' : versioneerSec ∈ s'.secs

theorem addLine_append {p : List CfgEntry} (h : p ≠ []) (v : Str) (o : List CfgEntry) : addLine v (p ++ o) = addLine v p ++ o := by
  cases p with
  | nil => exact absurd rfl h
  | cons e p => rfl

theorem addLine_ne {p : List CfgEntry} (h : p ≠ []) (v : Str) : addLine v p ≠ [] := by
  cases p with
  | nil => exact absurd rfl h
  | cons e p => simp [addLine]

theorem Same.line {o o' p : List CfgEntry} {s s' t t' : CfgState} (S : Same o o' p s s') {l : Str} (h : cfgLine s l = .ok t)
    (h' : cfgLine s' l = .ok t') : ∃ p', Same o o' p' t t' := by
  rw [cfgLine_eq] at h h'
  rw [← S.cur, ← S.cont, ← S.indent] at h'
  cases ha : lineAct s.cur s.cont s.indent l with
  | skip => rw [ha] at h h'; cases h; cases h'; exact ⟨p, S⟩
  | more v =>
    have hc := lineAct_more ha
    rw [ha] at h h'; cases h; cases h'
    refine ⟨addLine v p, ?_, ?_, S.cur, S.cont, S.indent, fun _ => addLine_ne (S.ne hc) v, S.sec, S.sec'⟩
    · show addLine v s.opts = _
      rw [S.opts, addLine_append (S.ne hc)]
    · show addLine v s'.opts = _
      rw [S.opts', addLine_append (S.ne hc)]
  | header n ind =>
    rw [ha] at h h'
    unfold LAct.apply at h h'
    simp only at h h'
    split_ifs at h h' <;> cases h <;> cases h'
    · exact ⟨p, S.opts, S.opts', rfl, rfl, rfl, (fun h => by cases h), S.sec, S.sec'⟩
    · exact ⟨p, S.opts, S.opts', rfl, rfl, rfl, (fun h => by cases h), List.mem_cons_of_mem _ S.sec, List.mem_cons_of_mem _ S.sec'⟩
  | option c n x ind =>
    rw [ha] at h h'
    unfold LAct.apply at h h'
    simp only at h h'
    split_ifs at h h' <;> cases h <;> cases h'
    refine ⟨⟨c, n, [x]⟩ :: p, ?_, ?_, S.cur, rfl, rfl, fun _ => by simp, S.sec, S.sec'⟩
    · show _ :: s.opts = _
      rw [S.opts]; rfl
    · show _ :: s'.opts = _
      rw [S.opts']; rfl
  | bad ind =>
    rw [ha] at h h'; cases h; cases h'
    exact ⟨p, S.opts, S.opts', S.cur, S.cont, rfl, S.ne, S.sec, S.sec'⟩
  | orphan => rw [ha] at h; cases h

theorem Same.lines {o o' p : List CfgEntry} {s s' t t' : CfgState} (S : Same o o' p s s') {ls : List Str} (h : cfgLines s ls = .ok t)
    (h' : cfgLines s' ls = .ok t') : ∃ p', Same o o' p' t t' := by
  induction ls generalizing s s' p with
  | nil => cases h; cases h'; exact ⟨p, S⟩
  | cons l ls ih =>
    obtain ⟨u, hu, h⟩ := cfgLines_cons_ok h
    obtain ⟨u', hu', h'⟩ := cfgLines_cons_ok h'
    obtain ⟨p', S'⟩ := S.line hu hu'
    exact ih S' h h'

/-- the section is over: what comes does not belong to it -/
structure Away (p : List CfgEntry) (s : CfgState) : Prop where
  opts : ∃ q, s.opts = q ++ p ∧ (∀ e ∈ q, e.sec ≠ versioneerSec) ∧ (s.cont = true → q ≠ [])
  cur : s.cur ≠ some versioneerSec
  sec : versioneerSec ∈ s.secs

theorem addLine_sec {q : List CfgEntry} (h : ∀ e ∈ q, e.sec ≠ versioneerSec) (v : Str) : ∀ e ∈ addLine v q, e.sec ≠ versioneerSec := by
  cases q with
  | nil => exact h
  | cons a q =>
    intro e he
    rcases List.mem_cons.mp he with rfl | he
    · exact h a (by simp)
    · exact h e (List.mem_cons_of_mem _ he)

theorem Away.line {p : List CfgEntry} {s t : CfgState} (A : Away p s) {l : Str} (h : cfgLine s l = .ok t) : Away p t := by
  rw [cfgLine_eq] at h
  obtain ⟨q, hq, hs, hn⟩ := A.opts
  cases ha : lineAct s.cur s.cont s.indent l with
  | skip => rw [ha] at h; cases h; exact A
  | more v =>
    have hc := lineAct_more ha
    rw [ha] at h; cases h
    refine ⟨⟨addLine v q, ?_, addLine_sec hs v, fun _ => addLine_ne (hn hc) v⟩, A.cur, A.sec⟩
    show addLine v s.opts = _
    rw [hq, addLine_append (hn hc)]
  | header n ind =>
    rw [ha] at h
    unfold LAct.apply at h
    simp only at h
    split_ifs at h with h1 h2 <;> cases h
    · refine ⟨⟨q, hq, hs, fun h => by cases h⟩, ?_, A.sec⟩
      rw [h1]
      intro h; exact default_ne (by simpa using h)
    · refine ⟨⟨q, hq, hs, fun h => by cases h⟩, ?_, List.mem_cons_of_mem _ A.sec⟩
      intro h
      have : n = versioneerSec := by simpa using h
      exact h2 (this ▸ A.sec)
  | option c n x ind =>
    have hc := lineAct_option ha
    rw [ha] at h
    unfold LAct.apply at h
    simp only at h
    split_ifs at h
    cases h
    refine ⟨⟨⟨c, n, [x]⟩ :: q, ?_, ?_, fun _ => by simp⟩, A.cur, A.sec⟩
    · show _ :: s.opts = _
      rw [hq]; rfl
    · intro e he
      rcases List.mem_cons.mp he with rfl | he
      · intro h
        exact A.cur (by rw [hc]; exact congrArg some h)
      · exact hs e he
  | bad ind =>
    rw [ha] at h; cases h
    exact ⟨⟨q, hq, hs, hn⟩, A.cur, A.sec⟩
  | orphan => rw [ha] at h; cases h

theorem Away.lines {p : List CfgEntry} {s t : CfgState} (A : Away p s) {ls : List Str} (h : cfgLines s ls = .ok t) : Away p t := by
  induction ls generalizing s with
  | nil => cases h; exact A
  | cons l ls ih =>
    obtain ⟨u, hu, h⟩ := cfgLines_cons_ok h
    exact ih (A.line hu) h

/-- options are in sections -/
structure InSections (s : CfgState) : Prop where
  opts : ∀ e ∈ s.opts, e.sec ∈ s.secs ∨ e.sec = defaultSec
  cur : ∀ c, s.cur = some c → c ∈ s.secs ∨ c = defaultSec

theorem addLine_mem {v : Str} {l : List CfgEntry} {e : CfgEntry} (h : e ∈ addLine v l) : ∃ e' ∈ l, e'.sec = e.sec := by
  cases l with
  | nil => cases h
  | cons a l =>
    rcases List.mem_cons.mp h with rfl | h
    · exact ⟨a, by simp, rfl⟩
    · exact ⟨e, List.mem_cons_of_mem _ h, rfl⟩

theorem InSections.line {s t : CfgState} (A : InSections s) {l : Str} (h : cfgLine s l = .ok t) : InSections t := by
  rw [cfgLine_eq] at h
  cases ha : lineAct s.cur s.cont s.indent l with
  | skip => rw [ha] at h; cases h; exact A
  | more v =>
    rw [ha] at h; cases h
    refine ⟨fun e he => ?_, A.cur⟩
    obtain ⟨e', he', hs⟩ := addLine_mem he
    rw [← hs]
    exact A.opts e' he'
  | header n ind =>
    rw [ha] at h
    unfold LAct.apply at h
    simp only at h
    split_ifs at h with h1 h2 <;> cases h
    · exact ⟨A.opts, fun c hc => .inr (by rw [← h1]; exact (Option.some.inj hc).symm)⟩
    · refine ⟨fun e he => ?_, fun c hc => .inl ?_⟩
      · rcases A.opts e he with h | h
        · exact .inl (List.mem_cons_of_mem _ h)
        · exact .inr h
      · rw [← Option.some.inj hc]; exact List.mem_cons_self
  | option c n x ind =>
    have hc := lineAct_option ha
    rw [ha] at h
    unfold LAct.apply at h
    simp only at h
    split_ifs at h
    cases h
    refine ⟨fun e he => ?_, A.cur⟩
    rcases List.mem_cons.mp he with rfl | he
    · exact A.cur c hc
    · exact A.opts e he
  | bad ind =>
    rw [ha] at h; cases h
    exact ⟨A.opts, A.cur⟩
  | orphan => rw [ha] at h; cases h

theorem InSections.lines {s t : CfgState} (A : InSections s) {ls : List Str} (h : cfgLines s ls = .ok t) : InSections t := by
  induction ls generalizing s with
  | nil => cases h; exact A
  | cons l ls ih =>
    obtain ⟨u, hu, h⟩ := cfgLines_cons_ok h
    exact ih (A.line hu) h

theorem inSections {t : Str} {s : CfgState} (h : cfgLines {} (pyLines t) = .ok s) : InSections s :=
  InSections.lines ⟨(fun e he => by cases he), (fun c hc => by cases hc)⟩ h

theorem no_entries {t : Str} {s : CfgState} (h : cfgLines {} (pyLines t) = .ok s) (hv : versioneerSec ∉ s.secs) :
    ∀ e ∈ s.opts, e.sec ≠ versioneerSec := by
  intro e he hs
  rcases (inSections h).opts e he with h' | h'
  · exact hv (hs ▸ h')
  · exact default_ne (h'.symm.trans hs)

/-! ## one line of a text -/

theorem pyLines_line {l : Str} (hl : '\n' ∉ l) (r : Str) : pyLines (l ++ '\n' :: r) = (l ++ ['\n']) :: pyLines r := by
  induction l with
  | nil => simp [pyLines]
  | cons c l ih =>
    have hc : c ≠ '\n' := fun h => hl (by rw [h]; exact List.mem_cons_self)
    rw [List.cons_append, pyLines, if_neg hc, ih fun h => hl (List.mem_cons_of_mem _ h)]
    rfl

theorem rstrip_of_last {l : Str} (h : ∀ hl : l ≠ [], isSpace (l.getLast hl) = false) : rstrip l = l := by
  unfold rstrip
  cases hr : l.reverse with
  | nil => rw [List.reverse_eq_nil_iff] at hr; rw [hr]; rfl
  | cons c r =>
    have hne : l ≠ [] := fun h => by rw [h] at hr; cases hr
    have hl : l.getLast hne = c := by
      have : l = r.reverse ++ [c] := by rw [← List.reverse_reverse l, hr]; simp
      simp [this]
    have := h hne
    rw [hl] at this
    rw [List.dropWhile_cons, this]
    simp only [Bool.false_eq_true, if_false]
    rw [← hr, List.reverse_reverse]

theorem strip_eq (l : Str) : strip l = rstrip (l.dropWhile isSpace) := rfl

theorem rstrip_length (l : Str) : (rstrip l).length ≤ l.length := by
  unfold rstrip
  rw [List.length_reverse]
  exact ((List.dropWhile_suffix _).length_le).trans (by simp)

theorem dropWhile_of_strip {v : Str} (h : strip v = v) : v.dropWhile isSpace = v := by
  have h1 : v.length ≤ (v.dropWhile isSpace).length := by
    conv_lhs => rw [← h]
    rw [strip_eq]; exact rstrip_length _
  exact (List.dropWhile_suffix _).eq_of_length_le h1

theorem rstrip_of_strip {v : Str} (h : strip v = v) : rstrip v = v := by
  conv_rhs => rw [← h]
  rw [strip_eq, dropWhile_of_strip h]

/-- a name that an option can have -/
structure PlainName (n : Str) : Prop where
  ne : n ≠ []
  chars : ∀ c ∈ n, isSpace c = false ∧ isDelim c = false ∧ c ≠ '\n'
  head : n.head? ≠ some '#' ∧ n.head? ≠ some ';' ∧ n.head? ≠ some '['

theorem rstrip_append {a b : Str} (h : rstrip b = b) (hb : b ≠ []) : rstrip (a ++ b) = a ++ b := by
  unfold rstrip at h ⊢
  rw [List.reverse_append]
  cases hr : b.reverse with
  | nil => exact absurd (List.reverse_eq_nil_iff.mp hr) hb
  | cons c r =>
    have hc : isSpace c = false := by
      rw [hr, List.dropWhile_cons] at h
      by_contra hc
      rw [if_pos (by simpa using hc)] at h
      have h1 := congrArg List.length h
      have h2 := congrArg List.length hr
      have h3 := (List.dropWhile_suffix isSpace (l := r)).length_le
      simp at h1 h2
      omega
    rw [List.cons_append, List.dropWhile_cons, hc]
    simp only [Bool.false_eq_true, if_false]
    rw [← List.cons_append, ← hr]
    simp

theorem strip_option {n v : Str} (hn : PlainName n) (hv : strip v = v) :
    strip (n ++ lit " = " ++ v) = n ++ (lit " =" ++ if v = [] then [] else ' ' :: v) := by
  have e : (n ++ lit " = " ++ v).dropWhile isSpace = n ++ lit " = " ++ v := by
    cases n with
    | nil => exact absurd rfl hn.ne
    | cons c n => rw [List.cons_append, List.cons_append, List.dropWhile_cons, (hn.chars c (by simp)).1]; rfl
  rw [strip_eq, e]
  split_ifs with h
  · have e2 : n ++ lit " = " ++ v = (n ++ lit " =") ++ [' '] := by
      rw [h]
      have : lit " = " = lit " =" ++ [' '] := by decide +kernel
      rw [this]; simp
    rw [e2]
    have : rstrip ((n ++ lit " =") ++ [' ']) = rstrip (n ++ lit " =") := by
      unfold rstrip
      rw [List.reverse_append]; rfl
    rw [this, rstrip_append (by decide +kernel) (by decide +kernel)]
    simp
  · rw [rstrip_append (rstrip_of_strip hv) h]
    have : lit " = " = lit " =" ++ [' '] := by decide +kernel
    rw [this]; simp

theorem option_option {n v : Str} (hn : PlainName n) (hv : strip v = v) :
    option? (n ++ (lit " =" ++ if v = [] then [] else ' ' :: v)) = some (lower n, v) := by
  have e0 : lit " =" = [' ', '='] := by decide +kernel
  have h1 : ∀ w : Str, (n ++ ' ' :: '=' :: w).dropWhile (fun c => !isDelim c) = '=' :: w := by
    intro w
    rw [List.dropWhile_append_of_pos fun c hc => by simp [(hn.chars c hc).2.1]]
    rfl
  have h2 : ∀ w : Str, (n ++ ' ' :: '=' :: w).takeWhile (fun c => !isDelim c) = n ++ [' '] := by
    intro w
    rw [List.takeWhile_append_of_pos fun c hc => by simp [(hn.chars c hc).2.1]]
    rfl
  have h3 : rstrip (n ++ [' ']) = n := by
    have : rstrip (n ++ [' ']) = rstrip n := by
      unfold rstrip; rw [List.reverse_append]; rfl
    rw [this]
    exact rstrip_of_last fun h => (hn.chars _ (List.getLast_mem h)).1
  have h4 : strip (if v = [] then [] else ' ' :: v) = v := by
    split_ifs with h
    · rw [h]; rfl
    · show strip v = v
      exact hv
  rw [e0]
  show option? (n ++ ' ' :: '=' :: _) = _
  unfold option?
  rw [h1, h2, h3]
  simp only
  rw [show ([] : Str).append (if v = [] then [] else ' ' :: v) = (if v = [] then [] else ' ' :: v) from rfl, h4]

/-- a line `name = value` -/
theorem cfgLine_option {s : CfgState} {c n v : Str} (hn : PlainName n) (hv : strip v = v) (hc : s.cur = some c)
    (hd : ∀ e ∈ s.opts, ¬ (e.sec = c ∧ e.opt = lower n)) :
    cfgLine s (n ++ lit " = " ++ v ++ ['\n']) =
      .ok { s with opts := ⟨c, lower n, [v]⟩ :: s.opts, cont := true, indent := 0 } := by
  rw [cfgLine_nl, cfgLine_eq]
  have hne : ∃ d m, n = d :: m := by
    cases n with
    | nil => exact absurd rfl hn.ne
    | cons d m => exact ⟨d, m, rfl⟩
  obtain ⟨d, m, hdm⟩ := hne
  have hh := hn.head
  rw [hdm] at hh
  simp only [List.head?_cons, ne_eq, Option.some.injEq] at hh
  have ha : lineAct s.cur s.cont s.indent (n ++ lit " = " ++ v) = .option c (lower n) v 0 := by
    have h1 := strip_option hn hv
    have hi : ((n ++ lit " = " ++ v).takeWhile isSpace).length = 0 := by
      rw [hdm, List.cons_append, List.cons_append, List.takeWhile_cons, (hn.chars d (by rw [hdm]; simp)).1]; rfl
    have hhd : header? (n ++ (lit " =" ++ if v = [] then [] else ' ' :: v)) = none := by
      rw [hdm, List.cons_append]
      unfold header?
      split
      · rename_i heq
        exact absurd (List.cons.inj heq).1 hh.2.2
      · rfl
    unfold lineAct
    simp only [h1, hi]
    rw [if_neg (by rw [hdm]; simp [hh.1, hh.2.1]), if_neg (by rw [hdm]; simp), if_neg (by simp), hhd, hc, option_option hn hv]
  rw [ha]
  have hany : s.opts.any (fun e => decide (e.sec = c) && decide (e.opt = lower n)) = false := by
    rw [List.any_eq_false]
    intro e he
    simpa using hd e he
  have hemp : (lower n).isEmpty = false := by rw [hdm]; rfl
  simp only [LAct.apply, hany, hemp]
  simp

/-! ## the section, whatever else there is -/

theorem FromHeader.away {d : Str} (hd : FromHeader d) {p : List CfgEntry} {s t : CfgState} (ho : s.opts = p) (hs : versioneerSec ∈ s.secs)
    (h : cfgLines s (pyLines d) = .ok t) :
    versioneerSec ∈ t.secs ∧ ∃ q, t.opts = q ++ p ∧ ∀ e ∈ q, e.sec ≠ versioneerSec := by
  rcases hd with rfl | ⟨name, rest, rfl, hne, hnl, hbr⟩
  · cases h
    exact ⟨hs, [], ho, fun e he => by cases he⟩
  · have e : '[' :: (name ++ lit "]\n" ++ rest) = ('[' :: (name ++ [']'])) ++ '\n' :: rest := by
      rw [show lit "]\n" = [']', '\n'] by decide +kernel]; simp
    rw [e, pyLines_line (by simp [hnl])] at h
    obtain ⟨u, hu, h⟩ := cfgLines_cons_ok h
    rw [cfgLine_nl, cfgLine_eq] at hu
    have h1 : strip ('[' :: (name ++ [']'])) = '[' :: (name ++ [']']) := by
      rw [strip_eq]
      rw [List.dropWhile_cons, show isSpace '[' = false from rfl]
      simp only [Bool.false_eq_true, if_false]
      exact rstrip_append (a := '[' :: name) (b := [']']) rfl (by simp)
    have h2 : header? ('[' :: (name ++ [']'])) = some name := by
      unfold header?
      have : (name ++ [']']).reverse.dropWhile (fun c => decide (c ≠ ']')) = ']' :: name.reverse := by
        rw [List.reverse_append]; rfl
      simp only [this]
      rw [if_neg (by simpa using hne), List.reverse_reverse]
    have ha : lineAct s.cur s.cont s.indent ('[' :: (name ++ [']'])) = .header name 0 := by
      unfold lineAct
      simp only [h1, h2]
      rw [if_neg (by simp), if_neg (by simp), List.takeWhile_cons, show isSpace '[' = false from rfl]
      simp
    rw [ha] at hu
    simp only [LAct.apply] at hu
    have hA : Away p u := by
      split_ifs at hu with g1 g2 <;> cases hu
      · refine ⟨⟨[], ho, fun e he => (by cases he), fun h => by cases h⟩, ?_, hs⟩
        rw [g1]
        intro h; exact default_ne (by simpa using h)
      · refine ⟨⟨[], ho, fun e he => (by cases he), fun h => by cases h⟩, ?_, List.mem_cons_of_mem _ hs⟩
        intro h
        have : name = versioneerSec := by simpa using h
        exact g2 (this ▸ hs)
    have hB := hA.lines h
    obtain ⟨q, hq, hqs, _⟩ := hB.opts
    exact ⟨hB.sec, q, hq, hqs⟩

theorem WholeLines.lines {a : Str} (h : WholeLines a) (t : Str) : pyLines (a ++ t) = pyLines a ++ pyLines t := by
  rcases h with rfl | ⟨s, rfl⟩
  · rfl
  · rw [List.append_assoc]
    exact pyLines_newline s t

/-- where the section starts -/
theorem section_start {a c d : Str} (ha : WholeLines a) (hc : WholeLines c) {s : CfgState}
    (h : cfgLines {} (pyLines (a ++ lit "[versioneer]\n" ++ c ++ d)) = .ok s) :
    ∃ sa u, (∀ e ∈ sa.opts, e.sec ≠ versioneerSec) ∧ cfgLines (entered sa) (pyLines c) = .ok u ∧ cfgLines u (pyLines d) = .ok s := by
  have hh : WholeLines (lit "[versioneer]\n") := .inr ⟨lit "[versioneer]", by decide +kernel⟩
  have hl : pyLines (lit "[versioneer]\n") = [lit "[versioneer]\n"] := by decide +kernel
  rw [List.append_assoc, List.append_assoc, ha.lines, hh.lines, hc.lines, hl] at h
  obtain ⟨sa, h1, h⟩ := cfgLines_append_ok h
  obtain ⟨u0, h2, h⟩ := cfgLines_append_ok h
  obtain ⟨u, h3, h4⟩ := cfgLines_append_ok h
  obtain ⟨u1, h5, h6⟩ := cfgLines_cons_ok h2
  cases h6
  rw [cfgLine_header] at h5
  split_ifs at h5 with hv
  cases h5
  exact ⟨sa, u, no_entries h1 hv, h3, h4⟩

theorem section_config {a a' c d d' : Str} (ha : WholeLines a) (ha' : WholeLines a') (hc : WholeLines c) (hd : FromHeader d)
    (hd' : FromHeader d') {s s' : CfgState} (h : cfgParse (a ++ lit "[versioneer]\n" ++ c ++ d) = .ok s)
    (h' : cfgParse (a' ++ lit "[versioneer]\n" ++ c ++ d') = .ok s') (hn : ∀ e ∈ s.opts, e.sec ≠ defaultSec)
    (hn' : ∀ e ∈ s'.opts, e.sec ≠ defaultSec) : s.config = s'.config := by
  obtain ⟨sa, u, h1, h2, h3⟩ := section_start ha hc (cfgParse_ok h).1
  obtain ⟨sa', u', h1', h2', h3'⟩ := section_start ha' hc (cfgParse_ok h').1
  have S : Same sa.opts sa'.opts [] (entered sa) (entered sa') :=
    ⟨rfl, rfl, rfl, rfl, rfl, (fun h => by cases h), List.mem_cons_self, List.mem_cons_self⟩
  obtain ⟨p, S'⟩ := S.lines h2 h2'
  obtain ⟨g1, q, g2, g3⟩ := hd.away S'.opts S'.sec h3
  obtain ⟨g1', q', g2', g3'⟩ := hd'.away S'.opts' S'.sec' h3'
  refine config_congr ⟨fun _ => g1', fun _ => g1⟩ fun opt => ?_
  rw [value_eq, value_eq, findOpt_none hn, findOpt_none hn', g2, g2', findOpt_append, findOpt_append, findOpt_append, findOpt_append,
    findOpt_none g3, findOpt_none g3', findOpt_none h1, findOpt_none h1']

/-! ## a section written by hand -/

theorem plain_names : PlainName (lit "VCS") ∧ PlainName (lit "style") ∧ PlainName (lit "versionfile_source") ∧
    PlainName (lit "versionfile_build") ∧ PlainName (lit "tag_prefix") ∧ PlainName (lit "parentdir_prefix") :=
  ⟨⟨by decide +kernel, by decide +kernel, by decide +kernel⟩, ⟨by decide +kernel, by decide +kernel, by decide +kernel⟩,
    ⟨by decide +kernel, by decide +kernel, by decide +kernel⟩, ⟨by decide +kernel, by decide +kernel, by decide +kernel⟩,
    ⟨by decide +kernel, by decide +kernel, by decide +kernel⟩, ⟨by decide +kernel, by decide +kernel, by decide +kernel⟩⟩

theorem written_lines {vcs style source build tag parent : Str} (h1 : '\n' ∉ vcs) (h2 : '\n' ∉ style) (h3 : '\n' ∉ source)
    (h4 : '\n' ∉ build) (h5 : '\n' ∉ tag) (h6 : '\n' ∉ parent) :
    pyLines (writtenSection vcs style source build tag parent) = [lit "[versioneer]\n",
      lit "VCS" ++ lit " = " ++ vcs ++ ['\n'], lit "style" ++ lit " = " ++ style ++ ['\n'],
      lit "versionfile_source" ++ lit " = " ++ source ++ ['\n'], lit "versionfile_build" ++ lit " = " ++ build ++ ['\n'],
      lit "tag_prefix" ++ lit " = " ++ tag ++ ['\n'], lit "parentdir_prefix" ++ lit " = " ++ parent ++ ['\n']] := by
  have e : writtenSection vcs style source build tag parent =
      lit "[versioneer]" ++ '\n' :: ((lit "VCS" ++ lit " = " ++ vcs) ++ '\n' :: ((lit "style" ++ lit " = " ++ style) ++ '\n' ::
        ((lit "versionfile_source" ++ lit " = " ++ source) ++ '\n' :: ((lit "versionfile_build" ++ lit " = " ++ build) ++ '\n' ::
        ((lit "tag_prefix" ++ lit " = " ++ tag) ++ '\n' :: ((lit "parentdir_prefix" ++ lit " = " ++ parent) ++ '\n' :: [])))))) := by
    unfold writtenSection
    rw [show lit "[versioneer]\nVCS = " = lit "[versioneer]" ++ '\n' :: (lit "VCS" ++ lit " = ") by decide +kernel,
      show lit "\nstyle = " = '\n' :: (lit "style" ++ lit " = ") by decide +kernel,
      show lit "\nversionfile_source = " = '\n' :: (lit "versionfile_source" ++ lit " = ") by decide +kernel,
      show lit "\nversionfile_build = " = '\n' :: (lit "versionfile_build" ++ lit " = ") by decide +kernel,
      show lit "\ntag_prefix = " = '\n' :: (lit "tag_prefix" ++ lit " = ") by decide +kernel,
      show lit "\nparentdir_prefix = " = '\n' :: (lit "parentdir_prefix" ++ lit " = ") by decide +kernel,
      show lit "\n" = ['\n'] by decide +kernel]
    simp only [List.append_assoc, List.cons_append, List.nil_append]
  have hn : ∀ {n v : Str}, PlainName n → '\n' ∉ v → '\n' ∉ n ++ lit " = " ++ v := by
    intro n v hn hv h
    rcases List.mem_append.mp h with h | h
    · rcases List.mem_append.mp h with h | h
      · exact (hn.chars _ h).2.2 rfl
      · exact absurd h (by decide +kernel)
    · exact hv h
  obtain ⟨n1, n2, n3, n4, n5, n6⟩ := plain_names
  rw [e, pyLines_line (by decide +kernel), pyLines_line (hn n1 h1), pyLines_line (hn n2 h2), pyLines_line (hn n3 h3), pyLines_line (hn n4 h4),
    pyLines_line (hn n5 h5), pyLines_line (hn n6 h6)]
  rfl

/-- its entries, latest first -/
def writtenEntries (vcs style source build tag parent : Str) : List CfgEntry := [
  ⟨versioneerSec, lower (lit "parentdir_prefix"), [parent]⟩, ⟨versioneerSec, lower (lit "tag_prefix"), [tag]⟩,
  ⟨versioneerSec, lower (lit "versionfile_build"), [build]⟩, ⟨versioneerSec, lower (lit "versionfile_source"), [source]⟩,
  ⟨versioneerSec, lower (lit "style"), [style]⟩, ⟨versioneerSec, lower (lit "VCS"), [vcs]⟩]

theorem new_option {s : CfgState} {l : List CfgEntry} {n : Str} (h : ∀ e ∈ l, e.opt ≠ n) (ho : ∀ e ∈ s.opts, e.sec ≠ versioneerSec) :
    ∀ e ∈ l ++ s.opts, ¬ (e.sec = versioneerSec ∧ e.opt = n) := by
  intro e he hh
  rcases List.mem_append.mp he with he | he
  · exact h e he hh.2
  · exact ho e he hh.1

theorem written_state {s : CfgState} (hv : versioneerSec ∉ s.secs) (ho : ∀ e ∈ s.opts, e.sec ≠ versioneerSec)
    {vcs style source build tag parent : Str} (h1 : PlainValue vcs) (h2 : PlainValue style)
    (h3 : PlainValue source) (h4 : PlainValue build) (h5 : PlainValue tag) (h6 : PlainValue parent) :
    cfgLines s (pyLines (writtenSection vcs style source build tag parent)) = .ok { entered s with
      opts := writtenEntries vcs style source build tag parent ++ s.opts, cont := true } := by
  obtain ⟨n1, n2, n3, n4, n5, n6⟩ := plain_names
  rw [written_lines h1.1 h2.1 h3.1 h4.1 h5.1 h6.1]
  refine cfgLines_step ((cfgLine_header _).trans (if_neg hv)) <|
    cfgLines_step (cfgLine_option n1 h1.2.2 rfl (new_option (l := []) (by simp) ho)) <|
    cfgLines_step (cfgLine_option n2 h2.2.2 rfl (new_option (l := [_]) ?_ ho)) <|
    cfgLines_step (cfgLine_option n3 h3.2.2 rfl (new_option (l := [_, _]) ?_ ho)) <|
    cfgLines_step (cfgLine_option n4 h4.2.2 rfl (new_option (l := [_, _, _]) ?_ ho)) <|
    cfgLines_step (cfgLine_option n5 h5.2.2 rfl (new_option (l := [_, _, _, _]) ?_ ho)) <|
    cfgLines_step (cfgLine_option n6 h6.2.2 rfl (new_option (l := [_, _, _, _, _]) ?_ ho)) rfl
  all_goals
    simp only [List.mem_cons, List.not_mem_nil, or_false, forall_eq_or_imp, forall_eq]
    decide +kernel

theorem findOpt_here {sec opt : Str} {v : List Str} {l : List CfgEntry} : findOpt sec opt (⟨sec, opt, v⟩ :: l) = some ⟨sec, opt, v⟩ := by
  unfold findOpt; simp

theorem findOpt_next {sec opt opt' : Str} {v : List Str} {l : List CfgEntry} (h : opt' ≠ opt) :
    findOpt sec opt (⟨sec, opt', v⟩ :: l) = findOpt sec opt l := by
  unfold findOpt
  rw [List.find?_cons]
  simp [h]

theorem entry_one {sec opt v : Str} (h : PlainValue v) : entryValue ⟨sec, opt, [v]⟩ = v := rstrip_of_strip h.2.2

theorem written_config {t : Str} {s : CfgState} (h : cfgParse t = .ok s) (hv : versioneerSec ∉ s.secs)
    (hn : ∀ e ∈ s.opts, e.sec ≠ defaultSec) {vcs style source build tag parent : Str} (h1 : PlainValue vcs) (h2 : PlainValue style)
    (h3 : PlainValue source) (h4 : PlainValue build) (h5 : PlainValue tag) (h6 : PlainValue parent) :
    getConfig (some (t ++ '\n' :: writtenSection vcs style source build tag parent)) = .ok {
      vcs := vcs
      style := style
      versionfileSource := some source
      versionfileBuild := some build
      tagPrefix := some (if tag = lit "''" ∨ tag = lit "\"\"" then [] else tag)
      parentdirPrefix := some parent
      verbose := none } := by
  obtain ⟨hl, hb⟩ := cfgParse_ok h
  obtain ⟨s', hs', he⟩ := cfgLines_more (writtenSection vcs style source build tag parent) hl
  have ho := no_entries hl hv
  have hs : s'.secs = s.secs ∧ s'.bad = false ∧ (∀ e ∈ s'.opts, e.sec ≠ versioneerSec) ∧ ∀ e ∈ s'.opts, e.sec ≠ defaultSec := by
    rcases hs' with rfl | rfl
    · exact ⟨rfl, hb, ho, hn⟩
    · refine ⟨(blank_fields s).1, (blank_fields s).2.1.trans hb, fun e he => ?_, fun e he => ?_⟩ <;>
      · unfold blank at he
        split_ifs at he
        · obtain ⟨e', he', h⟩ := addLine_mem he
          rw [← h]
          first | exact ho e' he' | exact hn e' he'
        · first | exact ho e he | exact hn e he
  obtain ⟨g1, g2, g3, g4⟩ := hs
  have hst := written_state (s := s') (by rw [g1]; exact hv) g3 h1 h2 h3 h4 h5 h6
  rw [hst] at he
  have hp := cfgParse_of he g2
  have hval : ∀ opt, CfgState.value { entered s' with
      opts := writtenEntries vcs style source build tag parent ++ s'.opts, cont := true } versioneerSec opt =
      (findOpt versioneerSec (lower opt) (writtenEntries vcs style source build tag parent)).map entryValue := by
    intro opt
    have hd : ∀ e ∈ writtenEntries vcs style source build tag parent, e.sec ≠ defaultSec := by
      intro e he
      simp only [writtenEntries, List.mem_cons, List.not_mem_nil, or_false] at he
      rcases he with rfl | rfl | rfl | rfl | rfl | rfl <;> exact fun h => default_ne h.symm
    rw [value_eq]
    simp only [findOpt_append, findOpt_none g3, findOpt_none g4, findOpt_none hd, Option.or_none, Option.map_none]
  have hsec : versioneerSec ∈ (entered s').secs := List.mem_cons_self
  have e1 : ∀ {opt v}, PlainValue v → (findOpt versioneerSec (lower opt) (writtenEntries vcs style source build tag parent)).map entryValue = some v →
      (CfgState.get { entered s' with opts := writtenEntries vcs style source build tag parent ++ s'.opts, cont := true }
        versioneerSec opt = .ok v) := by
    intro opt v hv hf
    unfold CfgState.get
    rw [hval, hf]
    simp only
    rw [if_pos hsec, if_neg hv.2.1]
  have e2 : ∀ {opt v}, PlainValue v → (findOpt versioneerSec (lower opt) (writtenEntries vcs style source build tag parent)).map entryValue = some v →
      (CfgState.get? { entered s' with opts := writtenEntries vcs style source build tag parent ++ s'.opts, cont := true }
        versioneerSec opt = .ok (some v)) := by
    intro opt v hv hf
    unfold CfgState.get?
    rw [e1 hv hf, hval, hf, if_pos ⟨hsec, rfl⟩]
    rfl
  have e3 : (CfgState.get? { entered s' with opts := writtenEntries vcs style source build tag parent ++ s'.opts, cont := true }
        versioneerSec (lit "verbose") = .ok none) := by
    unfold CfgState.get?
    rw [hval]
    unfold writtenEntries
    rw [findOpt_next (by decide +kernel), findOpt_next (by decide +kernel), findOpt_next (by decide +kernel),
      findOpt_next (by decide +kernel), findOpt_next (by decide +kernel), findOpt_next (by decide +kernel)]
    rw [if_neg]
    rintro ⟨_, h⟩
    cases h
  unfold getConfig
  simp only [hp]
  unfold CfgState.config
  rw [e1 h1, e2 h2, e2 h3, e2 h4, e2 h5, e2 h6, e3]
  · show Except.ok _ = Except.ok _
    congr 2
    by_cases ht : tag = lit "''" ∨ tag = lit "\"\""
    · rw [if_pos ht, if_pos (by simpa using ht)]
    · rw [if_neg ht, if_neg (by simpa using ht)]
  all_goals unfold writtenEntries
  · rw [findOpt_here, Option.map_some, entry_one h6]
  · rw [findOpt_next (by decide +kernel), findOpt_here, Option.map_some, entry_one h5]
  · rw [findOpt_next (by decide +kernel), findOpt_next (by decide +kernel), findOpt_here, Option.map_some, entry_one h4]
  · rw [findOpt_next (by decide +kernel), findOpt_next (by decide +kernel), findOpt_next (by decide +kernel), findOpt_here,
      Option.map_some, entry_one h3]
  · rw [findOpt_next (by decide +kernel), findOpt_next (by decide +kernel), findOpt_next (by decide +kernel),
      findOpt_next (by decide +kernel), findOpt_here, Option.map_some, entry_one h2]
  · rw [findOpt_next (by decide +kernel), findOpt_next (by decide +kernel), findOpt_next (by decide +kernel),
      findOpt_next (by decide +kernel), findOpt_next (by decide +kernel), findOpt_here, Option.map_some, entry_one h1]

end TwoLayer.Version
