import Verif.Model.GameData.Drk
import Verif.Model.GameData.Gnb
import Verif.Model.GameData.Pld
import Verif.Model.GameData.War
import Verif.Model.GameData.Ast
import Verif.Model.GameData.Sch
import Verif.Model.GameData.Sge
import Verif.Model.GameData.Whm
import Verif.Model.GameData.Brd
import Verif.Model.GameData.Dnc
import Verif.Model.GameData.Mch
import Verif.Model.GameData.Blm
import Verif.Model.GameData.Pct
import Verif.Model.GameData.Rdm
import Verif.Model.GameData.Smn
import Verif.Model.GameData.Drg
import Verif.Model.GameData.Mnk
import Verif.Model.GameData.Nin
import Verif.Model.GameData.Rpr
import Verif.Model.GameData.Sam
import Verif.Model.GameData.Vpr

/-!
# The skill library the simulator ships with

Model of `simulator/skills/create_skill_library.py`, of the five files `add_*_skills_to_skill_library.py`
it calls, and of `simulator/game_data/generic_skills` and `simulator/game_data/lb_skills`.
-/

namespace Ama.GameData

open PyVal

/-! ## Adding a job class -/

/-- simulator/skills/skill_library.py:100-120 `add_all_skills_from` for a class description whose methods
may raise.  The class description is constructed first (simulator/game_data/generic_job_class.py:15-22); all
skills are collected before the first one is added (line 114), and a `ValueError` raised on the way is
printed and forgotten (116-117). -/
def addAllSkillsFrom (lib : SkillLibrary) (j : JobClass) : Py SkillLibrary := do
  j.init
  let lib := lib.setCurrentJobClass j.jobClass
  let lib := match ← readPriority (← j.priority) with
    | Option.none => lib
    | some p => lib.setStatusEffectPriority p
  let lib ← match ← readBreakers (← j.comboBreakers) with
    | Option.none => pure lib
    | some bs => bs.foldlM (fun lib b => lib.addComboBreaker b.1 b.2) lib
  let lib ← match getSkills j.skillMethods with
    | .error .valueError => pure lib
    | .error e => .error e
    | .ok skills => skills.foldlM SkillLibrary.addSkill lib
  let resources ← getResources j.resourceMethods
  resources.foldlM (fun lib r => lib.addResource r.1 r.2) lib

/-- The job classes in the order in which `create_skill_library` adds them
(simulator/skills/create_skill_library.py:24-28): add_tank_skills_to_skill_library.py:10-13,
add_healer_skills_to_skill_library.py:11-14, add_ranged_skills_to_skill_library.py:9-11,
add_caster_skills_to_skill_library.py:10-15, add_melee_skills_to_skill_library.py:13-20.  Pictomancer and
Viper are left out below version 7.0. -/
def jobClasses (e : Env) : List JobClass :=
  [Drk.job e, Gnb.job e, Pld.job e, War.job e] ++
  [Ast.job e, Sch.job e, Sge.job e, Whm.job e] ++
  [Brd.job e, Dnc.job e, Mch.job e] ++
  ([Blm.job e, Rdm.job e, Smn.job e] ++ if e.ge .p70 then [Pct.job e] else []) ++
  ([Drg.job e, Mnk.job e, Nin.job e, Rpr.job e, Sam.job e] ++ if e.ge .p70 then [Vpr.job e] else [])

/-! ## Generic skills -/

namespace Generic

/-- simulator/game_data/generic_skills/generic_skills_data.py:7-33 -/
def table : Table := [
  ("Grade 8 Tincture", [
    (90, [
      ("animation_lock", [(.p655, .ok (.int 1300)), (.p70, .ok (.int 650))]),
      ("application_delay", [(.p655, .ok (.int 890)), (.p70, .ok (.int 625))])]),
    (100, [
      ("animation_lock", [(.p70, .ok (.int 650))]),
      ("application_delay", [(.p655, .ok (.int 890)), (.p70, .ok (.int 625))])])]),
  ("Grade 7 Tincture", [
    (90, [
      ("animation_lock", [(.p655, .ok (.int 1300)), (.p70, .ok (.int 650))]),
      ("application_delay", [(.p655, .ok (.int 890)), (.p70, .ok (.int 625))])]),
    (100, [
      ("animation_lock", [(.p70, .ok (.int 650))]),
      ("application_delay", [(.p70, .ok (.int 625))])])]),
  ("Grade 1 Gemdraught", [
    (90, [
      ("animation_lock", [(.p70, .ok (.int 650))]),
      ("application_delay", [(.p70, .ok (.int 625))])]),
    (100, [
      ("animation_lock", [(.p70, .ok (.int 650))]),
      ("application_delay", [(.p70, .ok (.int 625))])])]),
  ("Grade 2 Gemdraught", [
    (90, [
      ("animation_lock", [(.p70, .ok (.int 650))]),
      ("application_delay", [(.p70, .ok (.int 625))])]),
    (100, [
      ("animation_lock", [(.p705, .ok (.int 650))]),
      ("application_delay", [(.p70, .ok (.int 625))])])])]

/-- simulator/game_data/generic_skills/add_generic_skills_to_library.py:131-146 `__get_pot` -/
def pot (env : Env) (name : String) (mainStatAdd : ℤ) : Py PyVal := do
  newSkill {
    name := .str name
    is_GCD := .bool false
    timing_spec := ← newTimingSpec {
      base_cast_time := .int 0
      animation_lock := ← getSkillData table env (.str name) (.str "animation_lock")
      application_delay := ← getSkillData table env (.str name) (.str "application_delay") }
    buff_spec := ← newStatusEffectSpec {
      duration := ← toInt (← PyVal.mul (.float (2997 / 100)) (.int 1000))
      main_stat_add := .int mainStatAdd } }

/-- simulator/game_data/generic_skills/add_generic_skills_to_library.py:15-23 -/
def clearAllJobResourcesFollowUp (name : String) : Py PyVal := do
  newFollowUp {
    skill := ← newSkill {
      name := .str name
      job_resource_spec := .tuple [← newJobResourceSpec { clear_all_resources_only := .bool true }] }
    delay_after_parent_application := .int 0 }

/-- simulator/game_data/generic_skills/add_generic_skills_to_library.py:26-34 -/
def clearAllStatusEffectsFollowUp (name : String) : Py PyVal := do
  newFollowUp {
    skill := ← newSkill {
      name := .str name
      buff_spec := ← newStatusEffectSpec { clear_all_status_effects := .bool true } }
    delay_after_parent_application := .int 0 }

/-- simulator/game_data/generic_skills/add_generic_skills_to_library.py:37-42 -/
def clearAllCombosFollowUp (name : String) : Py PyVal := do
  newFollowUp {
    skill := ← newSkill {
      name := .str name
      combo_spec := .tuple [← newComboSpec { break_all_combos_only := .bool true }] }
    delay_after_parent_application := .int 0 }

/-- The timing spec of `Death`, `Weakness` and `Brink of Death`: all zero
(simulator/game_data/generic_skills/add_generic_skills_to_library.py:53, 78, 106). -/
def zeroTimingSpec : Py PyVal :=
  newTimingSpec { base_cast_time := .int 0, animation_lock := .int 0, application_delay := .int 0 }

/-- simulator/game_data/generic_skills/add_generic_skills_to_library.py:45-60 `__get_death` -/
def death : Py PyVal := do
  let name := "Death"
  let resources ← clearAllJobResourcesFollowUp name
  let effects ← clearAllStatusEffectsFollowUp name
  let combos ← clearAllCombosFollowUp name
  newSkill {
    name := .str name
    is_GCD := .bool false
    timing_spec := ← zeroTimingSpec
    follow_up_skills := .tuple [effects, combos, resources] }

/-- simulator/game_data/generic_skills/add_generic_skills_to_library.py:63-86 `__get_weakness` and 89-115
`__get_brink`, which differ in the name and the factor. -/
def weakened (name : String) (mainStatMult : ℚ) : Py PyVal := do
  let resources ← clearAllJobResourcesFollowUp name
  let effects ← clearAllStatusEffectsFollowUp name
  let combos ← clearAllCombosFollowUp name
  let weakness ← newFollowUp {
    skill := ← newSkill {
      name := .str name
      buff_spec := ← newStatusEffectSpec {
        duration := ← toInt (← PyVal.mul (.int 100) (.int 1000))
        main_stat_mult := .float mainStatMult } }
    delay_after_parent_application := .int 0 }
  newSkill {
    name := .str name
    is_GCD := .bool false
    timing_spec := ← zeroTimingSpec
    follow_up_skills := .tuple [effects, combos, resources, weakness] }

/-- The digits of a number below ten thousand milliseconds that is a multiple of ten, as
`f"{i/1000:.2f}"` prints it (`i/1000` has two decimals, so nothing is rounded). -/
def seconds (i : ℕ) : String :=
  toString (i / 1000) ++ "." ++ toString (i / 100 % 10) ++ toString (i / 10 % 10)

/-- One skill of `__add_wait`, simulator/game_data/generic_skills/add_generic_skills_to_library.py:118-128 -/
def wait (i : ℕ) : Py PyVal := do
  newSkill {
    name := .str (SimConsts.WAIT_PREFIX ++ " " ++ seconds i ++ "s")
    is_GCD := .bool false
    timing_spec := ← newTimingSpec { base_cast_time := .int 0, animation_lock := .int i } }

/-- `range(0, 10000, 10)` (line 119) -/
def waits : List ℕ := (List.range 1000).map (10 * ·)

/-- The generic skills of one job class other than the waits, in the order in which
simulator/game_data/generic_skills/add_generic_skills_to_library.py:154-177 adds them. -/
def skillMethods (env : Env) : List (Py PyVal) :=
  (if env.ge .p70 then [pot env "Grade 1 Gemdraught" 351] else []) ++
  (if env.ge .p705 then [pot env "Grade 2 Gemdraught" 392] else []) ++
  [pot env "Grade 8 Tincture" 262, pot env "Grade 7 Tincture" 223, death, weakened "Weakness" (3 / 4),
   weakened "Brink of Death" (1 / 2)]

/-- One limit break: a skill with a name and three times; all but those of tanks and healers have a damage
spec of potency 0 (simulator/game_data/lb_skills/add_lbs_to_skill_library.py:9-155). -/
def limitBreak (name : String) (damage : Bool) (cast lock delay : ℤ) : Py PyVal := do
  newSkill {
    name := .str name
    damage_spec := ← if damage then newDamageSpec { potency := .int 0 } else .ok .none
    timing_spec := ← newTimingSpec {
      base_cast_time := .int cast
      animation_lock := .int lock
      application_delay := .int delay } }

/-- The limit breaks of a job class, simulator/game_data/lb_skills/add_lbs_to_skill_library.py:158-177, with
the roles of simulator/game_data/job_class_fns.py:98-116. -/
def limitBreaks (jobClass : String) : Py (List (Py PyVal)) :=
  if jobClass ∈ ["GNB", "WAR", "PLD", "DRK"] then
    .ok [limitBreak "LB 1" false 0 1930 0, limitBreak "LB 2" false 0 3860 0,
      limitBreak "LB 3" false 0 3860 0]
  else if jobClass ∈ ["SCH", "WHM", "AST", "SGE"] then
    .ok [limitBreak "LB 1" false 2000 2100 0, limitBreak "LB 2" false 2000 5130 0,
      limitBreak "LB 3" false 2000 8100 0]
  else if jobClass ∈ ["MNK", "DRG", "SAM", "NIN", "RPR", "VPR"] then
    .ok [limitBreak "LB 1" true 2000 3860 0, limitBreak "LB 2" true 3000 3860 0,
      limitBreak "LB 3" true 4500 3700 2200]
  else if jobClass ∈ ["RDM", "BLM", "SMN", "PCT"] then
    .ok [limitBreak "LB 1" true 2000 3100 0, limitBreak "LB 2" true 3000 5100 0,
      limitBreak "LB 3" true 4500 8100 0]
  else if jobClass ∈ ["DNC", "BRD", "MCH"] then
    .ok [limitBreak "LB 1" true 2000 3100 0, limitBreak "LB 2" true 3000 3100 0,
      limitBreak "LB 3" true 4500 3700 0]
  else .error .runtimeError

end Generic

/-- `skill_library.add_skill(f())` for each of the methods -/
def addEach (lib : SkillLibrary) (methods : List (Py PyVal)) : Py SkillLibrary :=
  methods.foldlM (fun lib m => do
    match ← m with
    | .skill r => do lib.addSkill (← mkSkill r)
    | _ => .error .attributeError) lib

/-- simulator/game_data/lb_skills/add_lbs_to_skill_library.py:158-177 -/
def addLimitBreaks (lib : SkillLibrary) : Py SkillLibrary :=
  lib.getJobs.foldlM (fun lib j => do
    addEach (lib.setCurrentJobClass j) (← Generic.limitBreaks j)) lib

/-- simulator/game_data/generic_skills/add_generic_skills_to_library.py:149-182 -/
def addGenericSkills (lib : SkillLibrary) : Py SkillLibrary := do
  let env := Env.of lib.version lib.level
  let lib ← lib.getJobs.foldlM (fun lib j =>
    addEach (lib.setCurrentJobClass j) (Generic.skillMethods env ++ Generic.waits.map Generic.wait)) lib
  addLimitBreaks lib

/-- simulator/skills/create_skill_library.py:22-34 `create_skill_library` -/
def createSkillLibrary (version : String := "6.55") (level : ℕ := 100) : Py SkillLibrary := do
  let lib : SkillLibrary := { version, level }
  let lib ← (jobClasses (Env.of version level)).foldlM addAllSkillsFrom lib
  addGenericSkills lib

end Ama.GameData
