import Verif.Model.Skill

/-!
# Model of `simulator/skills/skill_library.py`
-/

namespace Ama

/-- skill_library.py:5-16; `version` and `level` are only stored. -/
structure SkillLibrary where
  skills : Dict String (Dict String Skill) := []
  priority : Dict String (List String) := []
  jobResources : Dict String (Dict String JobResourceSettings) := []
  comboBreakers : Dict String (Dict ℤ (List ℤ)) := []
  currentJobClass : Option String := none
  version : String := ""
  level : ℕ := 100
deriving DecidableEq

/-- What `add_all_skills_from` (skill_library.py:100-120) reads of a class description. -/
structure ClassSkills where
  jobClass : String
  priority : Option (List String) := none
  comboBreakers : Option (List (ℤ × List ℤ)) := none
  skills : List Skill := []
  resources : List (String × JobResourceSettings) := []

namespace SkillLibrary

/-- `d[self.__current_job_class]`, which raises `KeyError` while no job class is set. -/
def current {ν : Type} (lib : SkillLibrary) (d : Dict String ν) : Py (String × ν) :=
  match lib.currentJobClass with
  | none => .error .keyError
  | some j => do return (j, ← Dict.get d j)

/-- skill_library.py:24-30 `add_combo_breaker` -/
def addComboBreaker (lib : SkillLibrary) (group : ℤ) (breakers : List ℤ) : Py SkillLibrary := do
  let (j, d) ← lib.current lib.comboBreakers
  return { lib with comboBreakers := Dict.set lib.comboBreakers j (Dict.set d group breakers) }

/-- skill_library.py:32-33 `add_resource` -/
def addResource (lib : SkillLibrary) (name : String) (settings : JobResourceSettings) :
    Py SkillLibrary := do
  let (j, d) ← lib.current lib.jobResources
  return { lib with jobResources := Dict.set lib.jobResources j (Dict.set d name settings) }

/-- skill_library.py:35-36 `get_all_combo_breakers` -/
def getAllComboBreakers (lib : SkillLibrary) (jobClass : String) : Py (Dict ℤ (List ℤ)) :=
  Dict.get lib.comboBreakers jobClass

/-- skill_library.py:39-40 `get_all_resource_settings` -/
def getAllResourceSettings (lib : SkillLibrary) (jobClass : String) :
    Py (Dict String JobResourceSettings) :=
  Dict.get lib.jobResources jobClass

/-- skill_library.py:42-43 `has_skill` -/
def hasSkill (lib : SkillLibrary) (skillName jobClass : String) : Py Bool := do
  return Dict.mem (← Dict.get lib.skills jobClass) skillName

/-- skill_library.py:49-50 `has_job_class` -/
def hasJobClass (lib : SkillLibrary) (jobClass : String) : Bool := Dict.mem lib.skills jobClass

/-- skill_library.py:52-56 `get_skill` -/
def getSkill (lib : SkillLibrary) (skillName jobClass : String) : Py Skill := do
  Dict.get (← Dict.get lib.skills jobClass) skillName

/-- skill_library.py:58-71 `set_current_job_class` -/
def setCurrentJobClass (lib : SkillLibrary) (jobName : String) : SkillLibrary :=
  { lib with
    skills := if Dict.mem lib.skills jobName then lib.skills else Dict.set lib.skills jobName []
    priority := if Dict.mem lib.priority jobName then lib.priority
      else Dict.set lib.priority jobName []
    jobResources := if Dict.mem lib.jobResources jobName then lib.jobResources
      else Dict.set lib.jobResources jobName []
    comboBreakers := if Dict.mem lib.comboBreakers jobName then lib.comboBreakers
      else Dict.set lib.comboBreakers jobName []
    currentJobClass := some jobName }

/-- skill_library.py:73-77 `set_status_effect_priority`.  Simplification: before any job class is set
Python stores the value under the key `None`, which no modelled code reads. -/
def setStatusEffectPriority (lib : SkillLibrary) (p : List String) : SkillLibrary :=
  match lib.currentJobClass with
  | none => lib
  | some j => { lib with priority := Dict.set lib.priority j p }

/-- skill_library.py:79-80 `get_status_effect_priority` -/
def getStatusEffectPriority (lib : SkillLibrary) (jobName : String) : Py (List String) :=
  Dict.get lib.priority jobName

/-- skill_library.py:82-83 `get_jobs` -/
def getJobs (lib : SkillLibrary) : List String := Dict.keys lib.skills

/-- skill_library.py:85-93 `add_skill` -/
def addSkill (lib : SkillLibrary) (skill : Skill) : Py SkillLibrary := do
  let (j, d) ← lib.current lib.skills
  if Dict.mem d skill.name then .error .runtimeError
  else return { lib with skills := Dict.set lib.skills j (Dict.set d skill.name skill) }

/-- skill_library.py:100-120 `add_all_skills_from`.  A duplicate skill raises `RuntimeError`, which
the `except ValueError` at 116 does not catch. -/
def addAllSkillsFrom (lib : SkillLibrary) (c : ClassSkills) : Py SkillLibrary := do
  let lib := lib.setCurrentJobClass c.jobClass
  let lib := match c.priority with
    | none => lib
    | some p => lib.setStatusEffectPriority p
  let lib ← match c.comboBreakers with
    | none => pure lib
    | some bs => bs.foldlM (fun lib b => lib.addComboBreaker b.1 b.2) lib
  let lib ← c.skills.foldlM addSkill lib
  c.resources.foldlM (fun lib r => lib.addResource r.1 r.2) lib

end SkillLibrary

end Ama
