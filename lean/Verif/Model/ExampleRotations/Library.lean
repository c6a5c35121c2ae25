import Verif.Model.ExampleRotations.Data

/-!
# The example rotations

Model of `example_rotations/example_rotation_utils.py`, `add_rotation_to_rotation_library.py`, the files
`<role>/<job>.py`, the files `add_<role>_rotations_to_rotation_library.py` and `get_example_rotations.py`.
-/

namespace Ama.ExampleRotations

/-- The library of rotations: their names and rotation builders. -/
abbrev RotationLibrary := Dict String RotationBuilder

/-- example_rotation_utils.py:22-29: one party skill.  One with a modifier is added twice, with and without
it. -/
def addPartySkill (rb : RotationBuilder) (p : PartySkill) : Py RotationBuilder := do
  let rb ← match p.modifier with
    | some m => rb.add p.t p.skillName (some m) (some p.jobClass)
    | none => pure rb
  rb.add p.t p.skillName none (some p.jobClass)

/-- example_rotation_utils.py:14-34 `get_example_rotation_with_rb`; going through skills that are `None`
raises `TypeError`. -/
def getExampleRotationWithRb (key : String) (rb : RotationBuilder) (info : SpecificRotations) :
    Py (Option (String × RotationBuilder)) := do
  if ¬ (← info.rotationIsValid key) then return none
  let skills ← info.getSkills key
  let partySkills ← info.getPartySkills key
  let rb ← partySkills.foldlM addPartySkill rb
  match skills with
  | none => .error .typeError
  | some skills => return some (key, ← skills.foldlM (fun rb sk => rb.addNext sk) rb)

/-- example_rotation_utils.py:36-49 `get_example_rotation` -/
def getExampleRotation (lib : SkillLibrary) (key : String) (info : SpecificRotations) :
    Py (Option (String × RotationBuilder)) := do
  let stats ← info.getStats key
  let rb ← RotationBuilder.init stats lib (ignoreTrailingDots := true) (enableAutos := true) (snapDots := some 0)
  getExampleRotationWithRb key rb info

/-- healer/ast.py:21-29, healer/sge.py:21-29 and healer/whm.py:21-29: auto-attacks are not enabled. -/
def getExampleRotationNoAutos (lib : SkillLibrary) (key : String) (info : SpecificRotations) :
    Py (Option (String × RotationBuilder)) := do
  let stats ← info.getStats key
  let rb ← RotationBuilder.init stats lib (ignoreTrailingDots := true) (snapDots := some 0)
  getExampleRotationWithRb key rb info

/-- add_rotation_to_rotation_library.py:1-7 `add_to_rotation_library`.  The printed message is left out. -/
def addToRotationLibrary (nameAndRb : Option (String × RotationBuilder)) (res : RotationLibrary) :
    RotationLibrary :=
  match nameAndRb with
  | none => res
  | some (name, rb) => Dict.set res name rb

/-- The functions `add_<job>_rotations`, as tank/war.py:9-23 (with auto-attacks) and healer/ast.py:13-34
(without).  Simplification: the data is collected here, not when the data file is imported. -/
def addRotations (autos : Bool) (data : List (String × Dict ℕ RotationData)) (lib : SkillLibrary)
    (res : RotationLibrary) : Py RotationLibrary := do
  let info : SpecificRotations := { rotations := ← collect data, version := lib.version, level := lib.level }
  (Dict.keys info.rotations).foldlM (fun res key => do
    if ¬ (← info.rotationIsValid key) then return res
    let r ← if autos then getExampleRotation lib key info else getExampleRotationNoAutos lib key info
    return addToRotationLibrary r res) res

/-- The jobs in the order in which `get_example_rotations` (get_example_rotations.py:10-14) adds them:
add_tank_rotations_to_rotation_library.py:8-11, add_healer_rotations_to_rotation_library.py:8-11,
add_ranged_rotations_to_rotation_library.py:7-9, add_caster_rotations_to_rotation_library.py:8-11,
add_melee_rotations_to_rotation_library.py:9-14. -/
def allRotations : List (Bool × List (String × Dict ℕ RotationData)) :=
  [(true, war), (true, pld), (true, gnb), (true, drk),
   (false, whm), (false, sge), (true, sch), (false, ast),
   (true, brd), (true, dnc), (true, mch),
   (true, blm), (true, pct), (true, rdm), (true, smn),
   (true, drg), (true, mnk), (true, nin), (true, rpr), (true, sam), (true, vpr)]

/-- get_example_rotations.py:8-16 `get_example_rotations` -/
def getExampleRotations (lib : SkillLibrary) : Py RotationLibrary :=
  allRotations.foldlM (fun res x => addRotations x.1 x.2 lib res) []

end Ama.ExampleRotations
