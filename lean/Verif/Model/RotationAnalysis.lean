import Verif.Py.Float
import Verif.Model.DamageSimulator

/-!
# Model of `rotation_analysis/rotation_analysis_utils.py`

Floating point operations are modelled with their rounding (`Verif/Py/Float.lean`), except in
`getExpectedMaxInKRuns`.
-/

namespace Ama.RotationAnalysis

/-- Python's `range(start, stop, step)` as a list -/
def pyRange (start stop step : ℤ) : Py (List ℤ) :=
  if step = 0 then .error .valueError
  else if 0 < step then
    .ok ((List.range ((stop - start + step - 1) / step).toNat).map fun i : ℕ => start + i * step)
  else
    .ok ((List.range ((start - stop - step - 1) / -step).toNat).map fun i : ℕ => start + i * step)

/-- rotation_analysis_utils.py:16-18: one turn of the loop; comparing `None` with a number raises `TypeError` -/
def addIfBefore (timestamp res : ℚ) (sk : PerInstanceDamage) : Py ℚ :=
  match sk.snapshotTime with
  | none => .error .typeError
  | some t => .ok (if t ≤ timestamp then float64 (res + sk.expectedDamage) else res)

/-- rotation_analysis_utils.py:13-19 `get_all_damage_snapshots_before_timestamp`.  Simplification: the product
is rounded to a float also if the timestamp is an `int`, which makes no difference below 2^53. -/
def getAllDamageSnapshotsBeforeTimestamp (perSkillDamage : List PerInstanceDamage) (timestampInS : ℚ) : Py ℚ :=
  perSkillDamage.foldlM (addIfBefore (float64 (1000 * timestampInS))) 0

/-- rotation_analysis_utils.py:25-26 -/
def later (maxT : ℚ) (sk : PerInstanceDamage) : Py ℚ :=
  match sk.snapshotTime with
  | none => .error .typeError
  | some t => .ok (if maxT < t then t else maxT)

/-- rotation_analysis_utils.py:23-26 -/
def latest (perSkillDamage : List PerInstanceDamage) : Py ℚ := perSkillDamage.foldlM later (-1)

/-- rotation_analysis_utils.py:30-31 -/
def timestamps (maxT : ℚ) (interval : ℤ) : Py (List ℚ) := do
  let r ← pyRange interval (pyInt (npCeil (float64 (maxT / 1000)))) interval
  return r.map (fun i : ℤ => (i : ℚ)) ++ [float64 (maxT / 1000)]

/-- rotation_analysis_utils.py:21-40 `get_dps_at_intervals`: the rows of the result (time in seconds and
damage).  Simplification: the interval is an `int`; with anything else `range` raises `TypeError`. -/
def getDpsAtIntervals (perSkillDamage : List PerInstanceDamage) (interval : ℤ) : Py (List (ℚ × ℚ)) := do
  let maxT ← latest perSkillDamage
  let ts ← timestamps maxT interval
  ts.mapM fun t => do
    let tot ← getAllDamageSnapshotsBeforeTimestamp perSkillDamage t
    return (t, pyRound2 tot)

/-- The greatest element of a list; `np.max` of an empty array raises `ValueError` -/
def npMax : List ℚ → Py ℚ
  | [] => .error .valueError
  | x :: xs => .ok (xs.foldl max x)

/-- rotation_analysis_utils.py:5-10 `get_expected_max_in_k_runs`; `w i j` is the place of the value chosen in
trial `i` for run `j`.  The mean of no trials is `nan` (`none`).  Simplifications: the mean is exact,
and the list of values is not empty if anything is chosen (`np.random.choice` raises `ValueError` otherwise). -/
def getExpectedMaxInKRuns (x : List ℚ) (k trials : ℕ) (w : ℕ → ℕ → Fin x.length) : Py (Option ℚ) := do
  let res ← (List.range trials).mapM fun i => npMax ((List.range k).map fun j => x[w i j])
  return if trials = 0 then none else some (res.sum / trials)

end Ama.RotationAnalysis
