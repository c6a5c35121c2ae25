import Verif.Py.Dict

/-!
# Constants

Model of `simulator/sim_consts.py`, `simulator/game_data/game_consts.py`,
`simulator/calcs/damage_class.py` and `simulator/calcs/forced_crit_or_dh.py`.
-/

namespace Ama

/-! ## `simulator/sim_consts.py` -/

namespace SimConsts
/-- simulator/sim_consts.py:6 -/
def DEFAULT_CONDITION : String := ""
/-- simulator/sim_consts.py:7 -/
def COMBO_SUCCESS : String := ""
/-- simulator/sim_consts.py:8 -/
def COMBO_FAIL : String := "No Combo"
/-- simulator/sim_consts.py:9 -/
def DEFAULT_TARGET : String := "Default Target"
/-- simulator/sim_consts.py:10 -/
def LB_MEAN_DAMAGE : String := "Mean Damage:"
/-- simulator/sim_consts.py:11 -/
def LB_EXACT_DAMAGE : String := "Exact Damage:"
/-- simulator/sim_consts.py:12 -/
def WAIT_PREFIX : String := "Wait"
end SimConsts

/-- simulator/calcs/damage_class.py:3-9 -/
inductive DamageClass
  | unknown | direct | magicalDot | physicalDot | auto | pet
deriving DecidableEq, Repr

/-- simulator/calcs/forced_crit_or_dh.py:3-7 -/
inductive Forced
  | unknown | default | forceNo | forceYes
deriving DecidableEq, Repr

/-! ## `simulator/game_data/game_consts.py` -/

namespace GameConsts
/-- game_consts.py:8 -/
def GCD_RECAST_TIME : ℚ := 2500
/-- game_consts.py:9 -/
def DOT_TICK_INTERVAL : ℕ := 3000
/-- game_consts.py:10 -/
def COMBO_EXPIRATION_TIME : ℚ := 30 * 1000
/-- game_consts.py:11 -/
def DAMAGE_SNAPSHOT_TIME_BEFORE_CAST_FINISHES : ℚ := 500
/-- game_consts.py:12 -/
def DH_DAMAGE_MULT_BONUS : ℚ := 1 / 4
/-- game_consts.py:13 -/
def MIN_GCD_RECAST_TIME : ℚ := 1500
/-- game_consts.py:14 -/
def MULTI_TARGET_DELAY_PER_TARGET : ℚ := 135
/-- game_consts.py:18 -/
def kTestStr : String := "test"

/-- The common shape of the getters at game_consts.py:53-111: a test constant for the version
`"test"`, otherwise a lookup by level which raises `KeyError` for unsupported levels. -/
def lookup (testVal : ℚ) (table : Dict ℕ ℚ) (version : String) (level : ℕ) : Py ℚ :=
  if version = kTestStr then .ok testVal else Dict.get table level

/-- game_consts.py:54-57, tables at 27 and 41 -/
def getSpeedConst := lookup 130 [(90, 130), (100, 130)]
/-- game_consts.py:60-63, tables at 28 and 43-46: first component of the triple -/
def getCritConst0 := lookup 200 [(90, 200), (100, 200)]
/-- game_consts.py:60-63, tables at 28 and 43-46: second component of the triple -/
def getCritConst1 := lookup 50 [(90, 50), (100, 50)]
/-- game_consts.py:60-63, tables at 28 and 43-46: third component of the triple -/
def getCritConst2 := lookup 400 [(90, 400), (100, 400)]
/-- game_consts.py:66-69, tables at 26 and 39 -/
def getDhConst := lookup 550 [(90, 550), (100, 550)]
/-- game_consts.py:72-75, tables at 29 and 40 -/
def getDetConst := lookup 140 [(90, 140), (100, 140)]
/-- game_consts.py:78-81, tables at 25 and 37 -/
def getTenConst := lookup 100 [(90, 100), (100, 112)]
/-- game_consts.py:84-87, tables at 19 and 31 -/
def getLevelDiv := lookup 1900 [(90, 1900), (100, 2780)]
/-- game_consts.py:90-93, tables at 20 and 32 -/
def getLevelMain := lookup 390 [(90, 390), (100, 440)]
/-- game_consts.py:96-99, tables at 21 and 33 -/
def getLevelSub := lookup 400 [(90, 400), (100, 420)]
/-- game_consts.py:102-105, tables at 23 and 35 -/
def getFAP := lookup 195 [(90, 195), (100, 237)]
/-- game_consts.py:108-111, tables at 24 and 36 -/
def getFAPTank := lookup 156 [(90, 156), (100, 190)]

/-- game_consts.py:121-147 -/
def WEAPON_DELAYS : Dict String ℚ :=
  [("PLD", 224/100), ("WAR", 336/100), ("DRK", 296/100), ("GNB", 280/100),
   ("DRG", 280/100), ("RPR", 320/100), ("MNK", 256/100), ("SAM", 264/100), ("NIN", 256/100),
   ("VPR", 264/100), ("BRD", 304/100), ("MCH", 264/100), ("DNC", 312/100), ("BLM", 328/100),
   ("SMN", 312/100), ("RDM", 344/100), ("PCT", 296/100), ("WHM", 344/100), ("SCH", 312/100),
   ("AST", 320/100), ("SGE", 280/100)]

end GameConsts

end Ama
