import Verif.Model.DamageSimulator

/-!
# Model of `kill_time_estimator/kill_time_estimator.py`

Simplifications: floating point numbers are exact rationals, printing is dropped, random numbers are
inputs (see `Verif/Model/DamageTracker.lean`).  Two more things that the code leaves open are inputs as
well: the order in which `np.argsort` lists equal times, and the order in which the members of a set of
conditions are joined to a string.
-/

namespace Ama

/-- kill_time_estimator.py:8-13: the rotations and the boss HP -/
structure KillTimeEstimator where
  rotations : List RotationBuilder
  bossHp : ℚ

/-- Everything that is not determined by the code, for one rotation: the draws of the simulation, the
draws for the limit breaks (by row and sample) and the order in which the conditions of a row are joined. -/
structure RotationChoices where
  ranges : ℕ → ℕ → Draw
  samples : ℕ → ℕ → Draw
  limitBreak : ℕ → ℕ → ℚ
  joinOrder : ℕ → List String

namespace KillTimeEstimator

/-- The number of the longest non-empty run of digits at the start of a string.
Simplification: `\d` also matches digits of other scripts, which are not modelled. -/
def leadingNumber (s : List Char) : Option ℕ :=
  match s.takeWhile Char.isDigit with
  | [] => none
  | ds => some (ds.foldl (fun n c => 10 * n + (c.toNat - '0'.toNat)) 0)

/-- kill_time_estimator.py:17-18: `re.search(r"^{} (\d+)".format(prefix), condition)` and the number that was
matched -/
def searchNumber (pre condition : String) : Option ℕ :=
  match (pre ++ " ").toList.isPrefixOf condition.toList with
  | true => leadingNumber (condition.toList.drop (pre ++ " ").toList.length)
  | false => none

/-- kill_time_estimator.py:15-29 `get_lb_damage`; `w j` is the draw for sample `j` -/
def getLbDamage (condition : String) (numSamples : ℕ) (w : ℕ → ℚ) : Py (List ℚ) :=
  match searchNumber SimConsts.LB_MEAN_DAMAGE condition, searchNumber SimConsts.LB_EXACT_DAMAGE condition with
  | some mean, _ =>
    .ok ((List.range numSamples).map fun j => npFloor ((mean : ℚ) * (95 / 100 + 1 / 10 * w j)))
  | none, some exact => .ok (List.replicate numSamples (exact : ℚ))
  | none, none => .error .runtimeError

/-- `'LB' in name` -/
def isLb (name : String) : Bool := name.toList.tails.any fun t => "LB".toList.isPrefixOf t

/-- kill_time_estimator.py:33-36: one row -/
def processRow (numSamples : ℕ) (c : RotationChoices) (i : ℕ) (p : PerInstanceDamage) (row : List ℚ) :
    Py (List ℚ) :=
  if isLb p.skillName then getLbDamage (",".intercalate (c.joinOrder i)) numSamples (c.limitBreak i)
  else .ok row

/-- kill_time_estimator.py:31-37 `process_damage_for_lb_usage`, for the rows from number `i` on -/
def processRows (numSamples : ℕ) (c : RotationChoices) :
    ℕ → List PerInstanceDamage → List (List ℚ) → Py (List (List ℚ))
  | i, p :: ps, row :: rows => do
    let row ← processRow numSamples c i p row
    let rows ← processRows numSamples c (i + 1) ps rows
    return row :: rows
  | _, _, rows => .ok rows

/-- kill_time_estimator.py:43-53: the damage and the times of one rotation; `fuel` bounds the number of
auto-attacks -/
def rotationDamage (fuel numSamples : ℕ) (rb : RotationBuilder) (c : RotationChoices) :
    Py (List (List ℚ) × List ℚ) := do
  let db ← DamageBuilder.init rb.stats rb.lib
  let rb ← rb.getSkillTiming fuel
  let (instances, _) ← db.getDamageInstances rb.events
  let sim ← DamageSimulator.init rb.stats instances numSamples c.ranges c.samples
  let m := sim.getDamageMatrix.map fun row => row.map (·.1)
  let m ← processRows numSamples c 0 sim.getPerSkillDamage m
  return (m, sim.getDamageTime)

/-- kill_time_estimator.py:39-59: the loop over the rotations; `none` as long as there is no damage -/
def collect (fuel numSamples : ℕ) : List (RotationBuilder × RotationChoices) →
    Option (List (List ℚ)) × List ℚ → Py (Option (List (List ℚ)) × List ℚ)
  | [], acc => .ok acc
  | (rb, c) :: rest, (allDamage, allT) => do
    let (m, t) ← rotationDamage fuel numSamples rb c
    collect fuel numSamples rest (some (allDamage.elim m (· ++ m)), allT ++ t)

/-- `np.cumsum` of one column -/
def cumsum : ℚ → List ℚ → List ℚ
  | _, [] => []
  | acc, x :: xs => (acc + x) :: cumsum (acc + x) xs

/-- kill_time_estimator.py:67: index of the first entry that reaches the boss HP -/
def firstIndex (hp : ℚ) (cum : List ℚ) : Option ℕ := cum.findIdx? fun x => decide (hp ≤ x)

/-- kill_time_estimator.py:61-76 for the times and the matrix listed in sorted order: the kill times
(seconds), the accumulated damage per sample, and the times -/
def killTimes (hp : ℚ) (numSamples : ℕ) (allT : List ℚ) (allDamage : List (List ℚ)) :
    Py (List (Option ℚ) × List (List ℚ) × List ℚ) := do
  let columns := (List.range numSamples).map fun j => cumsum 0 (allDamage.map fun row => (row[j]?).getD 0)
  let idx := columns.filterMap (firstIndex hp)
  let numFailures := numSamples - idx.length
  let times ← idx.mapM (pyIdx allT)
  return (times.map (fun t => some (t / 1000)) ++ List.replicate numFailures none, columns, allT)

/-- kill_time_estimator.py:39-76 `estimate_kill_time`; `argsort` is the result of `np.argsort`, and
`choices` has one entry per rotation.  Without rotations `all_damage` is `None` and indexing it raises
`TypeError`. -/
def estimateKillTime (fuel numSamples : ℕ) (k : KillTimeEstimator) (choices : List RotationChoices)
    (argsort : List ℕ) : Py (List (Option ℚ) × List (List ℚ) × List ℚ) := do
  let (allDamage, allT) ← collect fuel numSamples (k.rotations.zip choices) (none, [])
  match allDamage with
  | none => .error .typeError
  | some m => do
    let t ← argsort.mapM (pyIdx allT)
    let m ← argsort.mapM (pyIdx m)
    killTimes k.bossHp numSamples t m

end KillTimeEstimator

end Ama
