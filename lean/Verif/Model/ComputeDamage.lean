import Verif.Model.Stats
import Verif.Model.Skill

/-!
# Model of `simulator/calcs/compute_damage_utils.py`

Simplification: floating point numbers are exact rationals.  `status_effects` is the pair of the
aggregated buffs (`.1`) and debuffs (`.2`).
-/

namespace Ama

/-- game_data/job_class_fns.py:34-48 and testing/job_class_fns.py:9 `USES_SKS` -/
def JobClassFns.usesSks (version jobClass : String) : Bool :=
  if version = "test" then decide (jobClass ∈ ["test_job", "test_tank_job"])
  else decide (jobClass ∈ ["WAR", "DRK", "PLD", "GNB", "SAM", "DRG", "RPR", "MNK", "NIN", "VPR", "DNC",
    "MCH", "BRD"])

namespace ComputeDamage

/-- compute_damage_utils.py:11-17 and 29-35 (`flag` is FORCE_YES, FORCE_NO) -/
def dhFlag (flag : Forced) (d : DamageSpec) (m : SkillModifier) (se : StatusEffects × StatusEffects) :
    Bool :=
  decide (d.guaranteedDh = flag) || decide (m.guaranteedDh = flag) ||
    decide (se.1.guaranteedDh = flag) || decide (se.2.guaranteedDh = flag)

/-- compute_damage_utils.py:20-26 and 38-44 (`flag` is FORCE_YES, FORCE_NO) -/
def critFlag (flag : Forced) (d : DamageSpec) (m : SkillModifier)
    (se : StatusEffects × StatusEffects) : Bool :=
  decide (d.guaranteedCrit = flag) || decide (m.guaranteedCrit = flag) ||
    decide (se.1.guaranteedCrit = flag) || decide (se.2.guaranteedCrit = flag)

/-- compute_damage_utils.py:47-51 `get_guaranteed_dh_bonus_dmg_multiplier` -/
def dhBonusMult (se : StatusEffects × StatusEffects) : ℚ :=
  GameConsts.DH_DAMAGE_MULT_BONUS * (se.1.dhRateAdd + se.2.dhRateAdd)

/-- compute_damage_utils.py:54-58 `get_guaranteed_crit_bonus_dmg_multiplier` -/
def critBonusMult (stats : Stats) (se : StatusEffects × StatusEffects) : ℚ :=
  stats.processed.critBonus * (se.1.critRateAdd + se.2.critRateAdd)

/-- compute_damage_utils.py:61-85 `get_guaranteed_dh_and_crit_bonus_dmg`, given the damage spec -/
def guaranteedBonus (stats : Stats) (d : DamageSpec) (m : SkillModifier)
    (se : StatusEffects × StatusEffects) : ℚ × ℚ :=
  (if dhFlag .forceYes d m se then dhBonusMult se else 0,
   if critFlag .forceYes d m se then critBonusMult stats se else 0)

/-- compute_damage_utils.py:88-89 `compute_damage_mult` -/
def computeDamageMult (se : StatusEffects × StatusEffects) : ℚ := se.1.damageMult * se.2.damageMult

/-- `skill.get_damage_spec(skill_modifier)` followed by reading an attribute of it -/
def specOf (skill : Skill) (m : SkillModifier) : Py DamageSpec := do
  match ← skill.getDamageSpec m with
  | none => .error .attributeError
  | some d => return d

/-- compute_damage_utils.py:116-125: the direct hit rate without the checks -/
def dhRate (stats : Stats) (d : DamageSpec) (m : SkillModifier) (se : StatusEffects × StatusEffects) :
    ℚ :=
  if dhFlag .forceYes d m se then 1
  else if dhFlag .forceNo d m se then 0
  else stats.processed.dhRate + se.1.dhRateAdd + se.2.dhRateAdd

/-- compute_damage_utils.py:127-137: the critical hit rate without the checks -/
def critRate (stats : Stats) (d : DamageSpec) (m : SkillModifier)
    (se : StatusEffects × StatusEffects) : ℚ :=
  if critFlag .forceYes d m se then 1
  else if critFlag .forceNo d m se then 0
  else stats.processed.critRate + se.1.critRateAdd + se.2.critRateAdd

/-- compute_damage_utils.py:92-139 `compute_crit_rates_and_bonuses`: direct hit rate, critical hit rate
and critical hit bonus -/
def critRatesAndBonuses (stats : Stats) (skill : Skill) (m : SkillModifier)
    (se : StatusEffects × StatusEffects) : Py (ℚ × ℚ × ℚ) := do
  let d ← specOf skill m
  if dhFlag .forceYes d m se && dhFlag .forceNo d m se then .error .runtimeError
  else if critFlag .forceYes d m se && critFlag .forceNo d m se then .error .runtimeError
  else return (dhRate stats d m se, critRate stats d m se, stats.processed.critBonus)

/-- compute_damage_utils.py:144-150 (also 220-226, 274-280, 403-412): main stat with buffs and party
bonus -/
def partyMainStat (stats : Stats) (se : StatusEffects × StatusEffects) : ℚ :=
  npFloor ((npFloor (stats.mainStat * se.1.mainStatMult * se.2.mainStatMult) +
    (se.1.mainStatAdd + se.2.mainStatAdd)) * (1 + 1 / 100 * stats.numRolesInParty))

/-- compute_damage_utils.py:161-168 (also 237-244, 291-298, 354-361, 433-440): determination, including
direct hit for guaranteed direct hits -/
def detDh (stats : Stats) (d : DamageSpec) (m : SkillModifier) (se : StatusEffects × StatusEffects) :
    Py ℚ :=
  if dhFlag .forceYes d m se then
    StatFns.fDetDH stats.detStat stats.dhStat stats.version stats.level
  else .ok stats.processed.detBonus

/-- `StatFns.fTnc(stats.tenacity, ...)`; without a tenacity this is a `TypeError` -/
def tnc (stats : Stats) : Py ℚ :=
  match stats.tenacity with
  | none => .error .typeError
  | some t => StatFns.fTnc t stats.version stats.level

/-- compute_damage_utils.py:194-202 (also 365-373, 443-451): the tenacity step of the formulas for direct
damage, pets and autos -/
def tankStep (stats : Stats) (base : ℚ) : Py ℚ :=
  if JobClassFns.isTank stats.version stats.jobClass then do
    let t ← tnc stats
    return npFloor (base * t / 10) / 100
  else .ok base

/-- compute_damage_utils.py:250-255 (also 302-307): the tenacity step of the formulas for dots -/
def tankStepDot (stats : Stats) (base : ℚ) : Py ℚ :=
  if JobClassFns.isTank stats.version stats.jobClass then do
    let t ← tnc stats
    return npFloor (base * t / 1000)
  else .ok base

/-- compute_damage_utils.py:205-213 (also 259-267, 312-320, 376-384, 460-467 and 475): the bonus for
guaranteed hits and the multiplier of the skill -/
def finish (stats : Stats) (d : DamageSpec) (m : SkillModifier) (se : StatusEffects × StatusEffects)
    (base : ℚ) : ℚ :=
  (base + (npFloor (base * (guaranteedBonus stats d m se).1) +
    npFloor (base * (guaranteedBonus stats d m se).2))) * d.singleDamageMult

/-- compute_damage_utils.py:185-203: the formulas of `compute_direct_damage` -/
def directBase (stats : Stats) (potency ap wd det : ℚ) : Py ℚ :=
  if JobClassFns.isHealer stats.version stats.jobClass ||
      JobClassFns.isCaster stats.version stats.jobClass then
    .ok (npFloor (npFloor (ap * det / 1000) / 100 * npFloor (wd * potency / 100)))
  else do
    let base ← tankStep stats (npFloor (npFloor (potency * ap / 100) / 100 * det / 10) / 100)
    return npFloor (npFloor (base * wd))

/-- compute_damage_utils.py:142-215 `compute_direct_damage` -/
def directDamage (skill : Skill) (m : SkillModifier) (stats : Stats)
    (se : StatusEffects × StatusEffects) : Py ℚ := do
  let d ← specOf skill m
  let ap ← StatFns.fAP (partyMainStat stats se) (JobClassFns.isTank stats.version stats.jobClass)
    stats.version stats.level
  let wd ← StatFns.fWD stats.wd stats.processed.jobMod stats.version stats.level
  let det ← detDh stats d m se
  let base ← directBase stats d.potency ap wd det
  return finish stats d m se base

/-- compute_damage_utils.py:218-269 `compute_magical_dot_damage` -/
def magicalDotDamage (skill : Skill) (m : SkillModifier) (stats : Stats)
    (se : StatusEffects × StatusEffects) : Py ℚ := do
  let d ← specOf skill m
  let spd ← StatFns.fSpd stats.speedStat stats.version stats.level
  let ap ← StatFns.fAP (partyMainStat stats se) (JobClassFns.isTank stats.version stats.jobClass)
    stats.version stats.level
  let wd ← StatFns.fWD stats.wd stats.processed.jobMod stats.version stats.level
  let det ← detDh stats d m se
  let base := npFloor (npFloor (d.potency * wd) / 100)
  let base := npFloor (npFloor (npFloor (base * ap) * spd))
  let base := npFloor (npFloor (base * det) / 1000)
  let base ← tankStepDot stats base
  return finish stats d m se (npFloor (npFloor (base / 1000) / 100))

/-- compute_damage_utils.py:272-322 `compute_physical_dot_damage` -/
def physicalDotDamage (skill : Skill) (m : SkillModifier) (stats : Stats)
    (se : StatusEffects × StatusEffects) : Py ℚ := do
  let d ← specOf skill m
  let spd ← StatFns.fSpd stats.speedStat stats.version stats.level
  let ap ← StatFns.fAP (partyMainStat stats se) (JobClassFns.isTank stats.version stats.jobClass)
    stats.version stats.level
  let wd ← StatFns.fWD stats.wd stats.processed.jobMod stats.version stats.level
  let det ← detDh stats d m se
  let base ← tankStepDot stats (npFloor (d.potency * ap * det / 100) / 1000)
  let base := npFloor (npFloor (base * spd) / 1000)
  return finish stats d m se (npFloor (npFloor (base * wd) / 100))

/-- compute_damage_utils.py:332-336 -/
def petJobMod (stats : Stats) (d : DamageSpec) : ℚ :=
  match d.petJobModOverride with
  | none => stats.processed.jobMod
  | some x => x

/-- compute_damage_utils.py:337-348: main stat of the pet -/
def petMainStat (stats : Stats) (d : DamageSpec) (se : StatusEffects × StatusEffects)
    (levelMain : ℚ) : ℚ :=
  (npFloor ((stats.mainStat -
      (npFloor (levelMain * stats.processed.jobMod / 100) -
        npFloor (levelMain * petJobMod stats d / 100))) * se.1.mainStatMult * se.2.mainStatMult) +
    (se.1.mainStatAdd + se.2.mainStatAdd)) * d.petScalar

/-- compute_damage_utils.py:325-386 `compute_pet_damage` -/
def petDamage (skill : Skill) (m : SkillModifier) (stats : Stats)
    (se : StatusEffects × StatusEffects) : Py ℚ := do
  let levelMain ← GameConsts.getLevelMain stats.version stats.level
  let d ← specOf skill m
  let ap ← StatFns.fAP (petMainStat stats d se levelMain) false stats.version stats.level
  let wd ← StatFns.fWD stats.wd (petJobMod stats d) stats.version stats.level
  let det ← detDh stats d m se
  let base ← tankStep stats (npFloor (npFloor (d.potency * ap / 100) / 100 * det / 10) / 100)
  return finish stats d m se (npFloor (npFloor (base * wd)))

/-- compute_damage_utils.py:390-412: the stat that autos scale with; healers and casters use strength -/
def autoMainStat (stats : Stats) (se : StatusEffects × StatusEffects) : Py ℚ :=
  if JobClassFns.isHealer stats.version stats.jobClass ||
      JobClassFns.isCaster stats.version stats.jobClass then
    match stats.healerOrCasterStrength with
    | none => .error .runtimeError
    | some s => .ok (s * (1 + 1 / 100 * stats.numRolesInParty))
  else .ok (partyMainStat stats se)

/-- compute_damage_utils.py:418-422 -/
def autoSpd (stats : Stats) : Py ℚ :=
  if JobClassFns.usesSks stats.version stats.jobClass then
    StatFns.fSpd stats.speedStat stats.version stats.level
  else .ok 1000

/-- compute_damage_utils.py:389-477 `compute_auto_damage` -/
def autoDamage (skill : Skill) (m : SkillModifier) (stats : Stats)
    (se : StatusEffects × StatusEffects) : Py ℚ := do
  let mainStat ← autoMainStat stats se
  let d ← specOf skill m
  let spd ← autoSpd stats
  let ap ← StatFns.fAP mainStat (JobClassFns.isTank stats.version stats.jobClass) stats.version
    stats.level
  let auto ← StatFns.fAuto stats.wd stats.weaponDelay stats.processed.jobMod stats.version stats.level
  let det ← detDh stats d m se
  let base ← tankStep stats (npFloor (npFloor (d.potency * ap / 100) / 100 * det / 10) / 100)
  let base := npFloor (base * spd) / 10
  return finish stats d m se (npFloor (npFloor (base * auto) / 100))

/-- compute_damage_utils.py:488-511: the choice of the formula -/
def byClass (c : DamageClass) (skill : Skill) (m : SkillModifier) (stats : Stats)
    (se : StatusEffects × StatusEffects) : Py ℚ :=
  match c with
  | .direct => directDamage skill m stats se
  | .magicalDot => magicalDotDamage skill m stats se
  | .physicalDot => physicalDotDamage skill m stats se
  | .auto => autoDamage skill m stats se
  | .pet => petDamage skill m stats se
  | .unknown => .error .runtimeError

/-- compute_damage_utils.py:480-512 `get_base_damage` -/
def getBaseDamage (skill : Skill) (m : SkillModifier) (stats : Stats)
    (se : StatusEffects × StatusEffects) : Py (Option ℚ) := do
  match ← skill.getDamageSpec m with
  | none => return none
  | some d =>
    if d.potency = 0 then return some 0
    else do
      let base ← byClass d.damageClass skill m stats se
      return some (max base 1)

end ComputeDamage

end Ama
