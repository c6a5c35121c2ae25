import Verif.Model.Skill

/-!
# Model of `simulator/trackers/job_resource_tracker.py`
-/

namespace Ama

/-- An item of a resource's list, job_resource_tracker.py:21-23 and 33-35. -/
structure ResourceEntry where
  start : ℚ
  endT : WithTop ℚ
  spec : JobResourceSpec
deriving DecidableEq

/-- job_resource_tracker.py:10-16 -/
structure JobResourceTracker where
  resources : Dict String (List ResourceEntry) := []
  configs : Dict String JobResourceSettings := []
deriving DecidableEq

namespace JobResourceTracker

/-- job_resource_tracker.py:10-16 `__init__` -/
def init (configs : Dict String JobResourceSettings) : JobResourceTracker :=
  { resources := configs.map (fun kv => (kv.1, [])), configs := configs }

/-- job_resource_tracker.py:18-23 `__clear_resources` -/
def clearResources (tr : JobResourceTracker) (t : ℚ) : JobResourceTracker :=
  { tr with resources := tr.resources.map (fun kv =>
      (kv.1, kv.2 ++ [{ start := t, endT := ⊤, spec := { name := kv.1, change := ⊥ } }])) }

/-- The body of the loop of `add_resource`, job_resource_tracker.py:27-40 -/
def addSpec (t : ℚ) (tr : JobResourceTracker) (spec : JobResourceSpec) : Py JobResourceTracker :=
  if spec.clearAllResourcesOnly then .ok (tr.clearResources t)
  else do
    let l ← Dict.get tr.resources spec.name
    let entry : ResourceEntry := { start := t, endT := (t : WithTop ℚ) + spec.duration, spec := spec }
    return { tr with resources := Dict.set tr.resources spec.name (l ++ [entry]) }

/-- job_resource_tracker.py:25-40 `add_resource` -/
def addResource (tr : JobResourceTracker) (t : ℚ) (skill : SkillCore) (m : SkillModifier) :
    Py JobResourceTracker := do
  (← skill.getJobResourceSpec m).foldlM (addSpec t) tr

/-- The loop variables of `compile_job_resources`. -/
structure LevelAcc where
  total : ℤ := 0
  lastRefresh : Option ℚ := none
deriving DecidableEq

/-- Lines 78-80: `max(0, min(total + change, max_value))`, where `change` may be `-math.inf`. -/
def changeTotal (total : ℤ) (change : WithBot ℤ) (maxValue : ℤ) : ℤ :=
  match change with
  | ⊥ => 0
  | (c : ℤ) => max 0 (min (total + c) maxValue)

/-- The body of the inner loop, job_resource_tracker.py:64-80 -/
def levelStep (cfg : JobResourceSettings) (t : ℚ) (acc : LevelAcc) (e : ResourceEntry) : LevelAcc :=
  let last := acc.lastRefresh.getD e.start
  let total := if (last : WithTop ℚ) + cfg.expiryFromLastGain < (e.start : WithTop ℚ) then 0
    else acc.total
  let last := if e.spec.refreshesDurationOfLastGained then e.start else last
  if t < e.start ∨ e.endT < (t : WithTop ℚ) then { total := total, lastRefresh := some last }
  else { total := changeTotal total e.spec.change cfg.maxValue, lastRefresh := some last }

/-- job_resource_tracker.py:56-87: the final `total_resource` for one resource whose (sorted) list is
`entries`.  Line 83 tests the truth value of `last_refresh_time`, which is also false for `0`. -/
def level (cfg : JobResourceSettings) (t : ℚ) (entries : List ResourceEntry) : ℤ :=
  let acc := entries.foldl (levelStep cfg t) {}
  match acc.lastRefresh with
  | none => acc.total
  | some last =>
    if last ≠ 0 ∧ (last : WithTop ℚ) + cfg.expiryFromLastGain < (t : WithTop ℚ) then 0
    else acc.total

/-- What is appended to `res` at job_resource_tracker.py:90-93 -/
def reportStr (cfg : JobResourceSettings) (name : String) (total : ℤ) : String :=
  if cfg.addNumberToConditional then toString total ++ " " ++ name else name

/-- The body of the outer loop, job_resource_tracker.py:49-93.  The model also records the resource
and its amount next to each string appended to `res`. -/
def compileStep (t : ℚ) (skillName : String)
    (acc : List (String × ℤ × String) × JobResourceTracker) (name : String) :
    Py (List (String × ℤ × String) × JobResourceTracker) := do
  let (res, tr) := acc
  let cfg ← Dict.get tr.configs name
  if skillName ∉ cfg.skillAllowlist then
    return (res, tr)
  else
    let l ← Dict.get tr.resources name
    let l := sortBy (·.start) l
    let tr := { tr with resources := Dict.set tr.resources name l }
    let total := level cfg t l
    if 0 < total then return (res ++ [(name, total, reportStr cfg name total)], tr)
    else return (res, tr)

/-- job_resource_tracker.py:46-93: the list `res` (with resource and amount recorded) and the new
state (the lists are sorted in place). -/
def compileReports (tr : JobResourceTracker) (t : ℚ) (skillName : String) :
    Py (List (String × ℤ × String) × JobResourceTracker) :=
  (Dict.keys tr.resources).foldlM (compileStep t skillName) ([], tr)

/-- job_resource_tracker.py:46-94 `compile_job_resources` -/
def compile (tr : JobResourceTracker) (t : ℚ) (skillName : String) : Py (String × JobResourceTracker) := do
  let (res, tr) ← tr.compileReports t skillName
  return (strJoin ", " (res.map (fun r => r.2.2)), tr)

end JobResourceTracker

end Ama
