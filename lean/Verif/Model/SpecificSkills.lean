import Verif.Model.Utils

/-!
# Model of `simulator/game_data/specific_skills.py`

The nested dictionary is skill name, level, parameter name, version.  Values are kept abstract (`ν`):
the class only hands them back.
-/

namespace Ama

/-- specific_skills.py:4-8 -/
structure SpecificSkills (ν : Type) where
  skills : Dict String (Dict ℤ (Dict String (Dict String ν))) := []
  version : Option String := none
  level : ℤ := -1

namespace SpecificSkills

variable {ν : Type}

/-- specific_skills.py:10-11 `set_version` -/
def setVersion (s : SpecificSkills ν) (v : String) : SpecificSkills ν := { s with version := some v }

/-- specific_skills.py:13-14 `set_level` -/
def setLevel (s : SpecificSkills ν) (l : ℤ) : SpecificSkills ν := { s with level := l }

/-- specific_skills.py:16-18 `add_skill_data` -/
def addSkillData (s : SpecificSkills ν) (name : String)
    (vals : Dict ℤ (Dict String (Dict String ν))) : Py (SpecificSkills ν) :=
  if Dict.mem s.skills name then .error .assertionError
  else .ok { s with skills := Dict.set s.skills name vals }

/-- specific_skills.py:20-31 `get_skill_data`; `None` when every listed version is newer.  With no
version set, comparing a listed version with `None` raises `TypeError` (nothing is compared when no
version is listed, and then `max` of nothing gives `None`). -/
def getSkillData (s : SpecificSkills ν) (name param : String) : Py (Option ν) :=
  match Dict.get? s.skills name with
  | none => .error .assertionError
  | some levels =>
    match Dict.get? levels s.level with
    | none => .error .assertionError
    | some params =>
      match Dict.get? params param with
      | none => .error .assertionError
      | some versions =>
        match s.version with
        | some v => Utils.getGreatestDictKeyVal versions v
        | none => if versions.isEmpty then .ok none else .error .typeError

/-- specific_skills.py:34-38 `get_potency` -/
def getPotency (s : SpecificSkills ν) (name : String) : Py ν := do
  match ← s.getSkillData name "potency" with
  | none => .error .valueError
  | some x => .ok x

/-- specific_skills.py:41-46 `get_potency_no_combo` -/
def getPotencyNoCombo (s : SpecificSkills ν) (name : String) : Py ν := do
  match ← s.getSkillData name "potency_no_combo" with
  | none => .error .assertionError
  | some x => .ok x

/-- specific_skills.py:48-53 `get_potency_no_positional` -/
def getPotencyNoPositional (s : SpecificSkills ν) (name : String) : Py ν := do
  match ← s.getSkillData name "potency_no_pos" with
  | none => .error .assertionError
  | some x => .ok x

end SpecificSkills

end Ama
