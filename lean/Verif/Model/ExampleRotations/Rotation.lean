import Verif.Model.SkillLibrary
import Verif.Model.RotationBuilder

/-!
# Model of `example_rotations/specific_rotations.py`
-/

namespace Ama.ExampleRotations

/-- A dictionary under the key `"stats"`, as read by `get_stats` (specific_rotations.py:44-66).
Simplification: the numbers read by `stats_dict[...]` are required, a missing one would raise `KeyError`. -/
structure RotationStats where
  wd : ℚ
  weaponDelay : Option ℚ := none
  mainStat : ℚ
  detStat : ℚ
  critStat : ℚ
  dhStat : ℚ
  speedStat : ℚ
  tenacity : Option ℚ := none
  healerOrCasterStrength : Option ℚ := none
  jobClass : String
deriving DecidableEq

/-- An element of `"party_skills"`, as read by `get_example_rotation_with_rb`
(example_rotation_utils.py:22-29): a time, a skill, a job class, and possibly a modifier. -/
structure PartySkill where
  t : ℚ
  skillName : String
  jobClass : String
  modifier : Option SkillModifier
deriving DecidableEq

/-- The dictionary of a rotation for a level, as in example_rotations/tank/war_data.py:8-44.
Simplification: `"stats"` and `"skills"` are required. -/
structure RotationData where
  stats : RotationStats
  skills : List String
  partySkills : Option (List PartySkill) := none
  startVersion : Option String := none
  endVersion : Option String := none
deriving DecidableEq

/-- specific_rotations.py:5-9.  Simplification: the version and the level are always there;
in the code they are `None` and -1 until `set_version` and `set_level` are called, which every
`add_..._rotations` does first. -/
structure SpecificRotations where
  rotations : Dict String (Dict ℕ RotationData) := []
  version : String
  level : ℕ

/-- specific_rotations.py:17-21 `add_rotation_data` -/
def addRotationData (rotations : Dict String (Dict ℕ RotationData)) (key : String)
    (vals : Dict ℕ RotationData) : Py (Dict String (Dict ℕ RotationData)) :=
  if Dict.mem rotations key then .error .assertionError else .ok (Dict.set rotations key vals)

/-- The loop at the end of every data file, as example_rotations/tank/war_data.py:134-135. -/
def collect (data : List (String × Dict ℕ RotationData)) : Py (Dict String (Dict ℕ RotationData)) :=
  data.foldlM (fun d kv => addRotationData d kv.1 kv.2) []

namespace SpecificRotations

/-- specific_rotations.py:23-30 `get_rotation_data`, for the parameter that `param` reads. -/
def getRotationData {α : Type} (info : SpecificRotations) (key : String) (param : RotationData → Option α) :
    Py (Option α) :=
  match Dict.get? info.rotations key with
  | none => .error .assertionError
  | some d => match Dict.get? d info.level with
    | none => .ok none
    | some r => .ok (param r)

/-- specific_rotations.py:32-42 `rotation_is_valid`; comparing with a missing start version raises
`TypeError`. -/
def rotationIsValid (info : SpecificRotations) (key : String) : Py Bool := do
  let start ← info.getRotationData key RotationData.startVersion
  let stop ← info.getRotationData key RotationData.endVersion
  if ¬ Dict.mem (← Dict.get info.rotations key) info.level then return false
  match start with
  | none => .error .typeError
  | some start =>
    if info.version < start then return false
    match stop with
    | none => return true
    | some stop => return ¬ stop < info.version

/-- game_data/game_consts.py:150-159 -/
def HEALER_CASTER_STRENGTH : Dict String ℚ :=
  [("SCH", 351), ("WHM", 214), ("SGE", 234), ("AST", 195), ("SMN", 351), ("RDM", 214), ("BLM", 175), ("PCT", 214)]

/-- specific_rotations.py:44-66 `get_stats`.  No `level` is passed to `Stats`. -/
def getStats (info : SpecificRotations) (key : String) : Py Stats := do
  match ← info.getRotationData key (fun r => some r.stats) with
  | none => .error .typeError
  | some s =>
    let defaultDelay ← Dict.get GameConsts.WEAPON_DELAYS s.jobClass
    mkStats {
      wd := s.wd
      weaponDelay := some (s.weaponDelay.getD defaultDelay)
      mainStat := s.mainStat
      detStat := s.detStat
      critStat := s.critStat
      dhStat := s.dhStat
      speedStat := s.speedStat
      tenacity := s.tenacity
      healerOrCasterStrength := match s.healerOrCasterStrength with
        | some x => some x
        | none => Dict.get? HEALER_CASTER_STRENGTH s.jobClass
      jobClass := s.jobClass
      version := info.version }

/-- specific_rotations.py:68-69 `get_skills` -/
def getSkills (info : SpecificRotations) (key : String) : Py (Option (List String)) :=
  info.getRotationData key (fun r => some r.skills)

/-- specific_rotations.py:71-75 `get_party_skills` -/
def getPartySkills (info : SpecificRotations) (key : String) : Py (List PartySkill) := do
  return (← info.getRotationData key RotationData.partySkills).getD []

end SpecificRotations

end Ama.ExampleRotations
