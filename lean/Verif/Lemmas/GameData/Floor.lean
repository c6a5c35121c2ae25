import Mathlib.Tactic.IntervalCases
import Verif.Model.GameData.Values

/-!
# Versions between two listed ones

Most of the game data looks at the version only through `<`, `>=` and "the latest listed version", and
then a version between two listed ones is treated like the lower of the two.  `Env.floor` is that listed
version.
-/

namespace Ama.GameData

/-- The position of the latest listed version that is not above the given one (0 if there is none).
A position above 10 does not occur. -/
def floorPos (n : ℕ) : ℕ :=
  if n < 1 then 0 else if n < 3 then 1 else if n < 5 then 3 else if n < 7 then 5 else if n < 9 then 7
  else if n < 11 then 9 else n

/-- The latest listed version, see `floorPos`. -/
def Env.floor (e : Env) : Env := ⟨floorPos e.pos, e.level⟩

theorem rank_le_floorPos (p : Patch) (n : ℕ) : p.rank ≤ floorPos n ↔ p.rank ≤ n := by
  unfold floorPos
  cases p <;> simp only [Patch.rank] <;> split_ifs <;> omega

theorem floor_level (e : Env) : e.floor.level = e.level := rfl

theorem floor_lt (e : Env) (p : Patch) : e.floor.lt p = e.lt p := by
  have := rank_le_floorPos p e.pos
  unfold Env.lt Env.floor
  simp only [decide_eq_decide]
  omega

theorem floor_ge (e : Env) (p : Patch) : e.floor.ge p = e.ge p := by
  have := rank_le_floorPos p e.pos
  unfold Env.ge Env.floor
  simp only [decide_eq_decide]
  omega

theorem floorPos_eq {p : Patch} {n : ℕ} (h : n ≠ p.rank + 1) : floorPos n = p.rank ↔ n = p.rank := by
  by_cases hn : n < 11
  · interval_cases n <;> cases p <;> simp_all [floorPos, Patch.rank]
  · have : floorPos n = n := by
      unfold floorPos
      split_ifs <;> omega
    rw [this]

theorem floor_eq {e : Env} {p : Patch} (h : e.pos ≠ p.rank + 1) : e.floor.eq p = e.eq p := by
  unfold Env.eq Env.floor
  simp only [floorPos_eq h]

theorem floor_ne {e : Env} {p : Patch} (h : e.pos ≠ p.rank + 1) : e.floor.ne p = e.ne p := by
  unfold Env.ne Env.floor
  simp only [floorPos_eq h]

theorem floor_le {e : Env} {p : Patch} (h : e.pos ≠ p.rank + 1) : e.floor.le p = e.le p := by
  have h1 := rank_le_floorPos p e.pos
  have h2 := floorPos_eq h
  unfold Env.le Env.floor
  simp only [decide_eq_decide]
  omega

theorem floor_gt {e : Env} {p : Patch} (h : e.pos ≠ p.rank + 1) : e.floor.gt p = e.gt p := by
  have h1 := rank_le_floorPos p e.pos
  have h2 := floorPos_eq h
  unfold Env.gt Env.floor
  simp only [decide_eq_decide]
  omega

theorem latest_floor (v : Dict Patch (Py PyVal)) (e : Env) : latest v e.floor = latest v e := by
  unfold latest Env.floor
  simp only [rank_le_floorPos]

theorem getSkillData_floor (t : Table) (e : Env) (name param : PyVal) :
    getSkillData t e.floor name param = getSkillData t e name param := by
  unfold getSkillData
  simp only [latest_floor, floor_level]

theorem getPotency_floor (t : Table) (e : Env) (name : PyVal) :
    getPotency t e.floor name = getPotency t e name := by
  unfold getPotency
  rw [getSkillData_floor]

theorem getPotencyNoCombo_floor (t : Table) (e : Env) (name : PyVal) :
    getPotencyNoCombo t e.floor name = getPotencyNoCombo t e name := by
  unfold getPotencyNoCombo
  rw [getSkillData_floor]

theorem getPotencyNoPositional_floor (t : Table) (e : Env) (name : PyVal) :
    getPotencyNoPositional t e.floor name = getPotencyNoPositional t e name := by
  unfold getPotencyNoPositional
  rw [getSkillData_floor]

end Ama.GameData
