import Verif.Model.StatFns
import Verif.Model.Utils

/-!
# Model of `simulator/stats.py`, `simulator/processed_stats.py` and the job tables
`simulator/game_data/job_class_fns.py`, `job_class_fns_data.py`, `testing/job_class_fns.py`
-/

namespace Ama

namespace JobClassFns

/-- game_data/job_class_fns.py:10-32 and testing/job_class_fns.py:2-8; which of the two is decided by
`get_job_class_fns` (get_job_class_fns.py:5-9). -/
def jobMods (version : String) : Dict String ℚ :=
  if version = "test" then
    [("test_job", 115), ("test_job2", 105), ("test_tank_job", 105), ("test_healer_job", 115),
     ("test_job_haste", 115)]
  else
    [("SCH", 115), ("SGE", 115), ("WHM", 115), ("AST", 115), ("WAR", 105), ("DRK", 105),
     ("PLD", 100), ("GNB", 100), ("SAM", 112), ("DRG", 115), ("RPR", 115), ("MNK", 110),
     ("NIN", 110), ("VPR", 110), ("DNC", 115), ("MCH", 115), ("BRD", 115), ("RDM", 115),
     ("SMN", 115), ("BLM", 115), ("PCT", 115)]

/-- game_data/job_class_fns.py:51-67 and testing/job_class_fns.py:12-18 -/
def traitDamageMult (version jobClass : String) : ℚ :=
  if version = "test" then
    if jobClass = "test_job2" then 140 / 100
    else if jobClass = "test_healer_job" then 130 / 100
    else 1
  else if jobClass ∈ ["SCH", "SGE", "WHM", "AST", "RDM", "SMN", "BLM", "PCT"] then 130 / 100
  else if jobClass ∈ ["DNC", "BRD", "MCH"] then 120 / 100
  else 1

/-- job_class_fns_data.py:1-10 `ALL_DATA`: the two tables are equal. -/
def allData : Dict ℕ (Dict String (Dict String ℚ)) :=
  [(90, [("6.55", [("MNK", 2 / 10)])]),
   (100, [("6.55", [("MNK", 2 / 10)]), ("7.0", [("MNK", 2 / 10), ("NIN", 15 / 100)])])]

/-- game_data/job_class_fns.py:70-81 and 84-96 (the same code for the two tables), and
testing/job_class_fns.py:21-32. -/
def traitReduction (version jobClass : String) (level : ℕ) : Py ℚ :=
  if version = "test" then .ok (if jobClass = "test_job_haste" then 2 / 10 else 0)
  else do
    let table ← Dict.get allData level
    match ← Utils.getGreatestDictKeyVal table version with
    | none => return 0
    | some jobs => return (Dict.get? jobs jobClass).getD 0

/-- game_data/job_class_fns.py:99-100 and testing/job_class_fns.py:35-36 `isTank` -/
def isTank (version jobClass : String) : Bool :=
  if version = "test" then decide (jobClass ∈ ["test_tank_job"])
  else decide (jobClass ∈ ["GNB", "WAR", "PLD", "DRK"])

/-- game_data/job_class_fns.py:103-104 and testing/job_class_fns.py:39-40 `isHealer` -/
def isHealer (version jobClass : String) : Bool :=
  if version = "test" then decide (jobClass ∈ ["test_healer_job"])
  else decide (jobClass ∈ ["SCH", "WHM", "AST", "SGE"])

/-- game_data/job_class_fns.py:111-112 and testing/job_class_fns.py:47-48 `isCaster` -/
def isCaster (version jobClass : String) : Bool :=
  if version = "test" then false
  else decide (jobClass ∈ ["RDM", "BLM", "SMN", "PCT"])

end JobClassFns

/-- processed_stats.py:7-41 -/
structure ProcessedStats where
  critRate : ℚ
  critBonus : ℚ
  detBonus : ℚ
  dhRate : ℚ
  jobMod : ℚ
  traitDamageMult : ℚ
  traitHasteTimeReduction : ℚ
  traitAutoAttackDelayReduction : ℚ
deriving DecidableEq

/-- stats.py:9-21: the arguments of `Stats`.  Simplification: the stats every job has are required
(`None` makes the constructor raise `TypeError`). -/
structure RawStats where
  wd : ℚ
  weaponDelay : Option ℚ := none
  mainStat : ℚ
  detStat : ℚ
  dhStat : ℚ
  critStat : ℚ
  speedStat : ℚ
  jobClass : String := ""
  version : String := ""
  tenacity : Option ℚ := none
  numRolesInParty : ℚ := 5
  healerOrCasterStrength : Option ℚ := none
  level : ℕ := 90
deriving DecidableEq

/-- stats.py:8-23 after `__post_init__` -/
structure Stats where
  wd : ℚ
  weaponDelay : ℚ
  mainStat : ℚ
  detStat : ℚ
  dhStat : ℚ
  critStat : ℚ
  speedStat : ℚ
  jobClass : String
  version : String
  tenacity : Option ℚ
  numRolesInParty : ℚ
  healerOrCasterStrength : Option ℚ
  level : ℕ
  processed : ProcessedStats
deriving DecidableEq

/-- processed_stats.py:8-41 `ProcessedStats.__init__` -/
def mkProcessedStats (s : RawStats) : Py ProcessedStats := do
  let (critRate, critBonus) ← StatFns.getCritStats s.critStat s.version s.level
  let detBonus ← StatFns.fDet s.detStat s.version s.level
  let dhRate ← StatFns.getDhRate s.dhStat s.version s.level
  let jobMod ← Dict.get (JobClassFns.jobMods s.version) s.jobClass
  let haste ← JobClassFns.traitReduction s.version s.jobClass s.level
  let auto ← JobClassFns.traitReduction s.version s.jobClass s.level
  return {
    critRate := critRate
    critBonus := critBonus
    detBonus := detBonus
    dhRate := dhRate
    jobMod := jobMod
    traitDamageMult := JobClassFns.traitDamageMult s.version s.jobClass
    traitHasteTimeReduction := haste
    traitAutoAttackDelayReduction := auto }

/-- stats.py:25-29 `__post_init__` -/
def mkStats (s : RawStats) : Py Stats := do
  let processed ← mkProcessedStats s
  let weaponDelay ← match s.weaponDelay with
    | some d => .ok d
    | none => Dict.get GameConsts.WEAPON_DELAYS s.jobClass
  return {
    wd := s.wd
    weaponDelay := weaponDelay
    mainStat := s.mainStat
    detStat := s.detStat
    dhStat := s.dhStat
    critStat := s.critStat
    speedStat := s.speedStat
    jobClass := s.jobClass
    version := s.version
    tenacity := s.tenacity
    numRolesInParty := s.numRolesInParty
    healerOrCasterStrength := s.healerOrCasterStrength
    level := s.level
    processed := processed }

end Ama
