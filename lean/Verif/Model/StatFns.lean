import Verif.Py.Float
import Verif.Model.Consts

/-!
# Model of `simulator/calcs/stat_fns.py`

Simplification: floating point numbers are exact rationals.
-/

namespace Ama.StatFns

/-- stat_fns.py:7-15 `get_time_using_speed_stat`.  The floating point operations are modelled with their rounding.
Simplification: the product in line 12 is exact (its factors are integers). -/
def getTimeUsingSpeedStat (tMs speedStat : ℚ) (version : String) (level : ℕ) : Py ℤ := do
  let levelSub ← GameConsts.getLevelSub version level
  let levelDiv ← GameConsts.getLevelDiv version level
  let speedConst ← GameConsts.getSpeedConst version level
  let tmp := npCeil (float64 (speedConst * (levelSub - speedStat) / levelDiv))
  let tmp2 := float64 (float64 (tMs * (1000 + tmp)) / 10000)
  let tmp3 := float64 (npFloor tmp2 / 100)
  return pyInt (float64 (1000 * tmp3))

/-- stat_fns.py:18-31 `get_crit_stats`: rate and bonus -/
def getCritStats (critStat : ℚ) (version : String) (level : ℕ) : Py (ℚ × ℚ) := do
  let levelSub ← GameConsts.getLevelSub version level
  let levelDiv ← GameConsts.getLevelDiv version level
  let c0 ← GameConsts.getCritConst0 version level
  let c1 ← GameConsts.getCritConst1 version level
  let c2 ← GameConsts.getCritConst2 version level
  let critRate := (npFloor (c0 * (critStat - levelSub) / levelDiv) + c1) / 1000
  let critBonus := (npFloor (c0 * (critStat - levelSub) / levelDiv) + c2) / 1000
  return (critRate, critBonus)

/-- stat_fns.py:34-39 `get_dh_rate` -/
def getDhRate (dhStat : ℚ) (version : String) (level : ℕ) : Py ℚ := do
  let levelSub ← GameConsts.getLevelSub version level
  let levelDiv ← GameConsts.getLevelDiv version level
  let dhConst ← GameConsts.getDhConst version level
  return npFloor (dhConst * (dhStat - levelSub) / levelDiv) / 1000

/-- stat_fns.py:43-45 `fWD` -/
def fWD (wd jobMod : ℚ) (version : String) (level : ℕ) : Py ℚ := do
  let levelMain ← GameConsts.getLevelMain version level
  return npFloor (levelMain * jobMod / 1000 + wd)

/-- stat_fns.py:49-54 `fSpd` -/
def fSpd (speedStat : ℚ) (version : String) (level : ℕ) : Py ℚ := do
  let levelSub ← GameConsts.getLevelSub version level
  let levelDiv ← GameConsts.getLevelDiv version level
  let speedConst ← GameConsts.getSpeedConst version level
  return npFloor (speedConst * (speedStat - levelSub) / levelDiv + 1000)

/-- stat_fns.py:57-62 `fTnc` -/
def fTnc (tenacity : ℚ) (version : String) (level : ℕ) : Py ℚ := do
  let levelSub ← GameConsts.getLevelSub version level
  let levelDiv ← GameConsts.getLevelDiv version level
  let tenConst ← GameConsts.getTenConst version level
  return npFloor (tenConst * (tenacity - levelSub) / levelDiv) + 1000

/-- stat_fns.py:66-84 `fAP` -/
def fAP (mainStat : ℚ) (isTank : Bool) (version : String) (level : ℕ) : Py ℚ := do
  let levelMain ← GameConsts.getLevelMain version level
  if isTank then
    return npFloor ((← GameConsts.getFAPTank version level) * (mainStat - levelMain) / levelMain) + 100
  else
    return npFloor ((← GameConsts.getFAP version level) * (mainStat - levelMain) / levelMain) + 100

/-- stat_fns.py:88-93 `fDet` -/
def fDet (detStat : ℚ) (version : String) (level : ℕ) : Py ℚ := do
  let levelMain ← GameConsts.getLevelMain version level
  let levelDiv ← GameConsts.getLevelDiv version level
  let detConst ← GameConsts.getDetConst version level
  return npFloor (detConst * (detStat - levelMain) / levelDiv) + 1000

/-- stat_fns.py:97-104 `fDetDH` -/
def fDetDH (detStat dhStat : ℚ) (version : String) (level : ℕ) : Py ℚ := do
  let levelSub ← GameConsts.getLevelSub version level
  let levelDiv ← GameConsts.getLevelDiv version level
  let detConst ← GameConsts.getDetConst version level
  return (← fDet detStat version level) + npFloor (detConst * (dhStat - levelSub) / levelDiv)

/-- stat_fns.py:107-109 `fAuto` -/
def fAuto (wd weaponDelay jobMod : ℚ) (version : String) (level : ℕ) : Py ℚ := do
  let levelMain ← GameConsts.getLevelMain version level
  return npFloor (npFloor (levelMain * jobMod / 1000 + wd) * (weaponDelay / 3))

end Ama.StatFns
