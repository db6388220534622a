import Verif.Model.Setup
import Verif.Proofs.Version

set_option linter.unusedSimpArgs false

/-!
# Packaging scripts (C82, C83)
-/

namespace TwoLayer.Version

/-- the line, without surrounding white space, is `s` -/
def IsLine (s : String) (l : Str) : Prop := strip l = s.toList

theorem readme_before {a : List Str} {b : Bool} (h : ∀ l ∈ a, ¬ IsLine ".. sec-begin-long-description" l ∧
    ¬ IsLine ".. sec-end-long-description" l) (ls : List Str) :
    readmeLoop b (a ++ ls) = (if b then a.map strip else []) ++ readmeLoop b ls := by
  induction a with
  | nil => cases b <;> rfl
  | cons l a ih =>
    have h1 := h l (by simp)
    have := ih fun x hx => h x (by simp [hx])
    rw [List.cons_append, readmeLoop, if_neg (show ¬ strip l = lit _ from h1.1), if_neg (show ¬ strip l = lit _ from h1.2)]
    cases b
    · simpa using this
    · simp only [if_true] at this ⊢
      rw [this]; rfl

/-- **C82.** The long description on the package index is the fixed title followed by exactly the README lines between the
first begin marker and the first end marker after it, stripped of surrounding white space. -/
theorem C82_section (a m z : List Str) (b e : Str) (hb : IsLine ".. sec-begin-long-description" b)
    (he : IsLine ".. sec-end-long-description" e)
    (ha : ∀ l ∈ a ++ m, ¬ IsLine ".. sec-begin-long-description" l ∧ ¬ IsLine ".. sec-end-long-description" l) :
    longDescription (a ++ [b] ++ m ++ [e] ++ z) =
      some (["Openscm Two Layer Model".toList, "=======================".toList, []] ++ m.map strip) := by
  have hb' : strip b = lit ".. sec-begin-long-description" := hb
  have he' : strip e = lit ".. sec-end-long-description" := he
  have hne : lit ".. sec-end-long-description" ≠ lit ".. sec-begin-long-description" := by decide
  have h1 : readmeLoop false (a ++ [b] ++ m ++ [e] ++ z) = m.map strip := by
    rw [List.append_assoc, List.append_assoc, List.append_assoc, readme_before fun l hl => ha l (by simp [hl])]
    rw [List.singleton_append, readmeLoop, if_pos hb', readme_before fun l hl => ha l (by simp [hl])]
    rw [List.singleton_append, readmeLoop, he', if_neg hne, if_pos rfl]
    simp
  simp only [longDescription, h1]
  rw [if_neg (by simp)]
  rfl

/-- **C82.** Without a begin marker the long description is the title alone. -/
theorem C82_no_section (a : List Str) (ha : ∀ l ∈ a, ¬ IsLine ".. sec-begin-long-description" l) :
    longDescription a = some ["Openscm Two Layer Model".toList, "=======================".toList, []] := by
  have h1 : readmeLoop false a = [] := by
    induction a with
    | nil => rfl
    | cons l a ih =>
      have h1 := ha l (by simp)
      rw [readmeLoop, if_neg (show ¬ strip l = lit _ from h1)]
      split_ifs
      · rfl
      · exact absurd ‹_› (by simp)
      · exact ih fun x hx => ha x (by simp [hx])
  simp only [longDescription, h1]
  rfl

/-- **C82.** The check for an insufficient description never fires, whatever the README contains. -/
theorem C82_never_raises (readme : List Str) : (longDescription readme).isSome = true := by
  simp only [longDescription]
  rw [if_neg (by simp)]
  rfl

/-- a name that can stand in a bullet list -/
def IsItem (r : Str) : Prop := r ≠ [] ∧ Solid r ∧ (∀ c s, r = c :: s → c ≠ '-') ∧ ∀ s c, r = s ++ [c] → c ≠ '-'

theorem item_strip {r : Str} (h : IsItem r) : strip ("- ".toList ++ r ++ ['\n']) = "- ".toList ++ r ∧
    strip (stripBy (· = '-') ("- ".toList ++ r)) = r := by
  obtain ⟨hne, hs, hf, hl⟩ := h
  have e : "- ".toList ++ r = ['-'] ++ [' '] ++ r := by simp
  refine ⟨?_, ?_⟩
  · rw [e]
    exact (strip_ends (a := ['-']) (m := [' ']) (by simp) hne (by unfold Solid; decide) hs).2
  · have h2 : stripBy (· = '-') ("- ".toList ++ r) = ' ' :: r := by
      obtain ⟨s, c, rfl⟩ := List.eq_nil_or_concat r |>.resolve_left hne
      have hc := hl s c (by simp)
      simp [stripBy, hc]
    rw [h2]
    have h3 := solid_isSpace hs
    have h4 : (' ' :: r).dropWhile isSpace = r := by
      rw [List.dropWhile_cons, show isSpace ' ' = true by decide, if_pos rfl, dropWhile_none h3]
    rw [strip, stripBy, h4, dropWhile_none fun c hc => h3 c (List.mem_reverse.mp hc), List.reverse_reverse]

theorem requirements_outside {a : List Str} (h : ∀ l ∈ a, ¬ IsLine ".. begin-dependencies" l) : ∀ ls,
    requirementsLoop false (a ++ ls) = requirementsLoop false ls := by
  induction a with
  | nil => intro _; rfl
  | cons l a ih =>
    intro ls
    have h1 := h l (by simp)
    have := ih (fun x hx => h x (by simp [hx])) ls
    rw [List.cons_append, requirementsLoop, if_neg (show ¬ strip l = lit _ from h1)]
    split_ifs
    · exact this
    · simp_all
    · exact this

theorem requirements_inside {rs : List Str} (h : ∀ r ∈ rs, IsItem r) : ∀ ls,
    requirementsLoop true (rs.map (fun r => "- ".toList ++ r ++ ['\n']) ++ ls) = rs ++ requirementsLoop true ls := by
  induction rs with
  | nil => intro _; rfl
  | cons r rs ih =>
    intro ls
    have hi := item_strip (h r (by simp))
    have := ih (fun x hx => h x (by simp [hx])) ls
    rw [List.map_cons, List.cons_append, requirementsLoop, hi.1, if_neg (by simp [lit]), if_neg (by simp [lit]),
      if_pos ⟨rfl, by simp⟩, hi.2, this]
    rfl

/-- **C83.** With the README's dependencies given as bullets between the markers, the check passes exactly when the bullets
and the `REQUIREMENTS` of `setup.py` name the same requirements, in any order and multiplicity. -/
theorem C83_requirements (reqs rs a z : List Str) (b e : Str) (hb : IsLine ".. begin-dependencies" b)
    (he : IsLine ".. end-dependencies" e) (hrs : ∀ r ∈ rs, IsItem r)
    (ha : ∀ l ∈ a ++ z, ¬ IsLine ".. begin-dependencies" l) :
    requirementsCheck reqs (a ++ [b, ['\n']] ++ rs.map (fun r => "- ".toList ++ r ++ ['\n']) ++ [['\n'], e] ++ z) = true ↔
      ∀ r, r ∈ reqs ↔ r ∈ rs := by
  have hb' : strip b = lit ".. begin-dependencies" := hb
  have he' : strip e = lit ".. end-dependencies" := he
  have hn : strip ['\n'] = [] := by decide
  have hnl : ∀ i ls, requirementsLoop i (['\n'] :: ls) = requirementsLoop i ls := by
    intro i ls
    rw [requirementsLoop, hn, if_neg (by decide), if_neg (by decide), if_neg (by simp)]
  have hne : lit ".. end-dependencies" ≠ lit ".. begin-dependencies" := by decide
  have h1 : requirementsLoop false (a ++ [b, ['\n']] ++ rs.map (fun r => "- ".toList ++ r ++ ['\n']) ++ [['\n'], e] ++ z) = rs := by
    simp only [List.append_assoc]
    rw [requirements_outside fun l hl => ha l (by simp [hl])]
    simp only [List.cons_append, List.nil_append]
    rw [requirementsLoop, if_pos hb', hnl]
    rw [show (List.map (fun r => "- ".toList ++ (r ++ ['\n'])) rs) = List.map (fun r => "- ".toList ++ r ++ ['\n']) rs by simp]
    rw [requirements_inside hrs, hnl, requirementsLoop, he', if_neg hne, if_pos rfl]
    have := requirements_outside (fun l hl => ha l (by simp [hl])) ([] : List Str) (a := z)
    rw [List.append_nil] at this
    rw [this]
    simp [requirementsLoop]
  rw [requirementsCheck, h1, decide_eq_true_iff, Finset.ext_iff]
  simp

/-- C82, C83: the README of the repository -/
example : longDescription ["intro\n".toList, ".. sec-begin-long-description\n".toList, "  Two layer\n".toList,
    ".. sec-end-long-description\n".toList, "x".toList] =
    some ["Openscm Two Layer Model".toList, "=======================".toList, [], "Two layer".toList] := by decide +kernel

example : IsItem "scmdata>=0.9".toList ∧ IsItem "tqdm".toList := by
  constructor <;>
  · refine ⟨by decide, by unfold Solid; decide, ?_, ?_⟩
    · intro c s h
      have := congrArg List.head? h
      simp at this
      rw [← this]; decide
    · intro s c h
      have := congrArg List.getLast? h
      simp at this
      rw [← this]; decide

example : requirementsCheck ["scmdata>=0.9".toList, "tqdm".toList] ["Intro\n".toList, ".. begin-dependencies\n".toList, "\n".toList,
    "- tqdm\n".toList, "- scmdata>=0.9\n".toList, "\n".toList, ".. end-dependencies\n".toList] = true ∧
  requirementsCheck ["scmdata>=0.9".toList, "tqdm".toList] [".. begin-dependencies\n".toList, "- tqdm\n".toList,
    ".. end-dependencies\n".toList] = false := by decide +kernel

end TwoLayer.Version
