import Verif.Model.Version

/-!
# Packaging scripts: the long description (`setup.py`) and the check of the listed dependencies

A file is the list of its lines.
-/

namespace TwoLayer.Version

/-- the loop over the README, `setup.py:93-100`; the flag is `add_line` -/
def readmeLoop : Bool → List Str → List Str
  | _, [] => []
  | add, l :: ls =>
    if strip l = lit ".. sec-begin-long-description" then readmeLoop true ls
    else if strip l = lit ".. sec-end-long-description" then []
    else if add then strip l :: readmeLoop add ls
    else readmeLoop add ls

/-- `README_LINES`, `setup.py:91-103`; `none` is the `RuntimeError` -/
def longDescription (readme : List Str) : Option (List Str) :=
  let lines := [lit "Openscm Two Layer Model", lit "=======================", []] ++ readmeLoop false readme
  if lines.length < 3 then none else some lines

/-- the loop over the README, `scripts/check_requirements_in_readme.py:14-23` -/
def requirementsLoop : Bool → List Str → List Str
  | _, [] => []
  | inside, l :: ls =>
    if strip l = lit ".. begin-dependencies" then requirementsLoop true ls
    else if strip l = lit ".. end-dependencies" then requirementsLoop false ls
    else if inside ∧ strip l ≠ [] then strip (stripBy (· = '-') (strip l)) :: requirementsLoop inside ls
    else requirementsLoop inside ls

/-- does the script's assertion hold, `scripts/check_requirements_in_readme.py:25-28`; `requirements` is the list in
`setup.py` (simplification: the script finds it by executing the line of `setup.py`, lines 2-9) -/
def requirementsCheck (requirements readme : List Str) : Bool :=
  decide (requirements.toFinset = (requirementsLoop false readme).toFinset)

end TwoLayer.Version
