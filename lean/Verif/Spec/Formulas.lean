import Verif.Spec.Numbers

/-!
# Specification vocabulary: the damage formulas without any rounding
-/

namespace Ama.Spec

/-- The numbers of the game at one level: base main stat, base substat, divisor of substats, slope of the
attack power for tanks and for all others, slope of tenacity. -/
structure LevelNumbers where
  main : ℚ
  sub : ℚ
  div : ℚ
  attack : ℚ
  tankAttack : ℚ
  tenacity : ℚ

/-- Level 100 and level 90; the test version has the numbers of level 90. -/
def levelNumbers (raw : RawStats) : LevelNumbers :=
  if raw.version ≠ "test" ∧ raw.level = 100 then ⟨440, 420, 2780, 237, 190, 112⟩
  else ⟨390, 400, 1900, 195, 156, 100⟩

/-- The percentage of the base main stat that a job has. -/
def jobModifier (job : String) : ℚ :=
  if job ∈ ["PLD", "GNB"] then 100
  else if job ∈ ["WAR", "DRK", "test_job2", "test_tank_job"] then 105
  else if job ∈ ["MNK", "NIN", "VPR"] then 110
  else if job = "SAM" then 112
  else 115

/-- Tanks. -/
def Tank (job : String) : Prop := job ∈ ["PLD", "WAR", "DRK", "GNB", "test_tank_job"]

/-- Healers and casters. -/
def Mage (job : String) : Prop :=
  job ∈ ["WHM", "SCH", "AST", "SGE", "test_healer_job", "BLM", "SMN", "RDM", "PCT"]

/-- Jobs with skill speed. -/
def SkillSpeed (job : String) : Prop :=
  job ∈ ["PLD", "WAR", "DRK", "GNB", "MNK", "DRG", "NIN", "SAM", "RPR", "VPR", "BRD", "MCH", "DNC", "test_job",
    "test_tank_job"]

instance (job : String) : Decidable (Tank job) := by unfold Tank; infer_instance
instance (job : String) : Decidable (Mage job) := by unfold Mage; infer_instance
instance (job : String) : Decidable (SkillSpeed job) := by unfold SkillSpeed; infer_instance

/-- The multiplier all damage of a job gets from its traits. -/
def traitMultiplier (job : String) : ℚ :=
  if job = "test_job2" then 14 / 10
  else if Mage job then 13 / 10
  else if job ∈ ["BRD", "MCH", "DNC"] then 12 / 10
  else 1

/-- The seconds between two auto-attacks, for jobs whose weapon delay is not given. -/
def defaultDelay (job : String) : ℚ :=
  if job = "PLD" then 224 / 100
  else if job ∈ ["MNK", "NIN"] then 256 / 100
  else if job ∈ ["SAM", "VPR", "MCH"] then 264 / 100
  else if job ∈ ["GNB", "DRG", "SGE"] then 280 / 100
  else if job ∈ ["DRK", "PCT"] then 296 / 100
  else if job = "BRD" then 304 / 100
  else if job ∈ ["DNC", "SMN", "SCH"] then 312 / 100
  else if job ∈ ["RPR", "AST"] then 320 / 100
  else if job = "BLM" then 328 / 100
  else if job = "WAR" then 336 / 100
  else 344 / 100

/-- `x` is `y` rounded down, by less than `unit`. -/
def RoundedDown (unit x y : ℚ) : Prop := y - unit < x ∧ x ≤ y

/-- The critical hit rate of a character: 5%, and more with critical hit. -/
def exactCritRate (raw : RawStats) : ℚ :=
  5 / 100 + 200 * (raw.critStat - (levelNumbers raw).sub) / (levelNumbers raw).div / 1000

/-- The additional damage of critical hits: 40%, and more with critical hit. -/
def exactCritBonus (raw : RawStats) : ℚ :=
  40 / 100 + 200 * (raw.critStat - (levelNumbers raw).sub) / (levelNumbers raw).div / 1000

/-- The direct hit rate of a character. -/
def exactDhRate (raw : RawStats) : ℚ :=
  550 * (raw.dhStat - (levelNumbers raw).sub) / (levelNumbers raw).div / 1000

/-- The factors of a damage formula. -/
structure Factors where
  attack : ℚ
  weapon : ℚ
  determination : ℚ
  tenacity : ℚ
  speed : ℚ
  guaranteed : ℚ

namespace Factors

/-- The product of all factors. -/
def product (f : Factors) : ℚ :=
  f.attack * f.weapon * f.determination * f.tenacity * f.speed * f.guaranteed

/-- Subtract from every factor. -/
def minus (f u : Factors) : Factors :=
  ⟨f.attack - u.attack, f.weapon - u.weapon, f.determination - u.determination, f.tenacity - u.tenacity,
    f.speed - u.speed, f.guaranteed - u.guaranteed⟩

/-- No factor is negative. -/
def NonNeg (f : Factors) : Prop :=
  0 ≤ f.attack ∧ 0 ≤ f.weapon ∧ 0 ≤ f.determination ∧ 0 ≤ f.tenacity ∧ 0 ≤ f.speed ∧ 0 ≤ f.guaranteed

end Factors

section

variable (raw : RawStats) (d : DamageSpec) (m : SkillModifier) (se : StatusEffects × StatusEffects)

/-- The bonus for the number of roles in the party: 1% each. -/
def partyBonus : ℚ := 1 + raw.numRolesInParty / 100

/-- The seconds between two auto-attacks. -/
def delayOf : ℚ := raw.weaponDelay.getD (defaultDelay raw.jobClass)

/-- The job modifier of a pet; some have one of their own. -/
def petModifier : ℚ := d.petJobModOverride.getD (jobModifier raw.jobClass)

/-- The main stat that damage scales with.  Pets do not get the party bonus, and have the base stat of their
own job modifier; auto-attacks of healers and casters scale with strength, without buffs. -/
def exactMainStat : ℚ :=
  match d.damageClass with
  | .pet =>
    ((raw.mainStat - (⌊(levelNumbers raw).main * jobModifier raw.jobClass / 100⌋ -
      ⌊(levelNumbers raw).main * petModifier raw d / 100⌋)) * se.1.mainStatMult * se.2.mainStatMult +
      se.1.mainStatAdd + se.2.mainStatAdd) * d.petScalar
  | .auto =>
    if Mage raw.jobClass then raw.healerOrCasterStrength.getD 0 * partyBonus raw
    else (raw.mainStat * se.1.mainStatMult * se.2.mainStatMult + se.1.mainStatAdd + se.2.mainStatAdd) * partyBonus raw
  | _ => (raw.mainStat * se.1.mainStatMult * se.2.mainStatMult + se.1.mainStatAdd + se.2.mainStatAdd) * partyBonus raw

/-- How much attack power a point of main stat gives: pets of tanks are no tanks. -/
def attackSlope : ℚ :=
  if Tank raw.jobClass ∧ d.damageClass ≠ .pet then (levelNumbers raw).tankAttack else (levelNumbers raw).attack

/-- The critical hit rate that buffs and debuffs add. -/
def addedCrit : ℚ := se.1.critRateAdd + se.2.critRateAdd

/-- The direct hit rate that buffs and debuffs add. -/
def addedDh : ℚ := se.1.dhRateAdd + se.2.dhRateAdd

/-- The factors, without rounding. -/
def factors : Factors where
  attack := 1 + attackSlope raw d * (exactMainStat raw d se - (levelNumbers raw).main) / (levelNumbers raw).main / 100
  weapon := match d.damageClass with
    | .pet => (levelNumbers raw).main * petModifier raw d / 1000 + raw.wd
    | .auto => ((levelNumbers raw).main * jobModifier raw.jobClass / 1000 + raw.wd) * delayOf raw / 3
    | _ => (levelNumbers raw).main * jobModifier raw.jobClass / 1000 + raw.wd
  determination := 1 + 140 * (raw.detStat - (levelNumbers raw).main) / (levelNumbers raw).div / 1000 +
    if Forced.forceYes ∈ dhSources d m se then
      140 * (raw.dhStat - (levelNumbers raw).sub) / (levelNumbers raw).div / 1000
    else 0
  tenacity := if Tank raw.jobClass then
      1 + (levelNumbers raw).tenacity * (raw.tenacity.getD 0 - (levelNumbers raw).sub) / (levelNumbers raw).div / 1000
    else 1
  speed :=
    if d.damageClass = .magicalDot ∨ d.damageClass = .physicalDot ∨ (d.damageClass = .auto ∧ SkillSpeed raw.jobClass)
    then 1 + 130 * (raw.speedStat - (levelNumbers raw).sub) / (levelNumbers raw).div / 1000
    else 1
  guaranteed := 1 + (if Forced.forceYes ∈ dhSources d m se then addedDh se / 4 else 0) +
    if Forced.forceYes ∈ critSources d m se then exactCritBonus raw * addedCrit se else 0

/-- By how much the main stat may be rounded down. -/
def mainStatUnit : ℚ :=
  match d.damageClass with
  | .pet => d.petScalar
  | _ => partyBonus raw + 1

/-- By how much each factor may be rounded down. -/
def units : Factors where
  attack := (1 + attackSlope raw d * mainStatUnit raw d / (levelNumbers raw).main) / 100
  weapon := if d.damageClass = .auto then delayOf raw / 3 + 1 else 1
  determination := 2 / 1000
  tenacity := if Tank raw.jobClass then 1 / 1000 else 0
  speed := 1 / 1000
  guaranteed := addedCrit se / 1000

/-- The damage without rounding: hundredths of the potency, times the factors, times the multiplier of the
skill. -/
def exactDamage : ℚ := d.potency / 100 * (factors raw d m se).product * d.singleDamageMult

/-- What is lost by rounding intermediate results. -/
def roundingLoss (f : Factors) : ℚ :=
  match d.damageClass with
  | .magicalDot => f.attack * f.speed * f.determination * f.tenacity + f.tenacity / 100 + 2
  | .physicalDot => f.weapon * (f.tenacity * f.speed + f.speed + 2) / 100 + 2
  | .auto => f.weapon * (f.speed * (f.determination * f.tenacity + f.tenacity + 1) + 1) / 100 + 2
  | .direct =>
    if Mage raw.jobClass then f.attack * f.determination + d.potency * f.weapon / 10000 + 1
    else f.weapon * (f.determination * f.tenacity + f.tenacity + 1) / 100 + 1
  | _ => f.weapon * (f.determination * f.tenacity + f.tenacity + 1) / 100 + 1

/-- The damage if everything is rounded down as far as it may be. -/
def leastDamage : ℚ :=
  (d.potency / 100 * ((factors raw d m se).minus (units raw d se)).product -
    (roundingLoss raw d (factors raw d m se) * (factors raw d m se).guaranteed + 2)) * d.singleDamageMult

end

end Ama.Spec
