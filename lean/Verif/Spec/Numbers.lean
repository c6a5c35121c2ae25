import Verif.Model.ComputeDamage

/-!
# Specification vocabulary: stats and damage formulas
-/

namespace Ama.Spec

/-- There are constants for the test version and for levels 90 and 100. -/
def Supported (version : String) (level : ℕ) : Prop := version = "test" ∨ level = 90 ∨ level = 100

/-- The value of a substat without any gear. -/
def baseSub (version : String) (level : ℕ) : ℚ :=
  if version = "test" then 400 else if level = 90 then 400 else 420

/-- An optional stat: present on both sides and not smaller on the right, or absent on both. -/
def OptLe (x y : Option ℚ) : Prop :=
  (x = none ∧ y = none) ∨ ∃ a b, x = some a ∧ y = some b ∧ 0 ≤ a ∧ a ≤ b

/-- Two characters of the same job, level and version; no stat of the first one is higher, and its party has
no more roles.  All stats other than the main stat are non-negative. -/
structure NoStronger (r r' : RawStats) : Prop where
  jobClass : r'.jobClass = r.jobClass
  version : r'.version = r.version
  level : r'.level = r.level
  party : 0 ≤ r.numRolesInParty ∧ r.numRolesInParty ≤ r'.numRolesInParty
  mainStat : r.mainStat ≤ r'.mainStat
  wd : 0 ≤ r.wd ∧ r.wd ≤ r'.wd
  detStat : 0 ≤ r.detStat ∧ r.detStat ≤ r'.detStat
  dhStat : 0 ≤ r.dhStat ∧ r.dhStat ≤ r'.dhStat
  critStat : 0 ≤ r.critStat ∧ r.critStat ≤ r'.critStat
  speedStat : 0 ≤ r.speedStat ∧ r.speedStat ≤ r'.speedStat
  weaponDelay : OptLe r.weaponDelay r'.weaponDelay
  tenacity : OptLe r.tenacity r'.tenacity
  strength : OptLe r.healerOrCasterStrength r'.healerOrCasterStrength

/-- The multipliers and bonuses of a status effect are non-negative. -/
def NonNegEffects (s : StatusEffects) : Prop :=
  0 ≤ s.mainStatMult ∧ 0 ≤ s.critRateAdd ∧ 0 ≤ s.dhRateAdd

/-- The multipliers of a damage specification are non-negative. -/
def NonNegDamage (d : DamageSpec) : Prop :=
  0 ≤ d.petScalar ∧ 0 ≤ d.singleDamageMult ∧ ∀ x, d.petJobModOverride = some x → 0 ≤ x

/-- What the skill, the modifier, the buffs and the debuffs say about direct hits. -/
def dhSources (d : DamageSpec) (m : SkillModifier) (se : StatusEffects × StatusEffects) : List Forced :=
  [d.guaranteedDh, m.guaranteedDh, se.1.guaranteedDh, se.2.guaranteedDh]

/-- What the skill, the modifier, the buffs and the debuffs say about critical hits. -/
def critSources (d : DamageSpec) (m : SkillModifier) (se : StatusEffects × StatusEffects) :
    List Forced :=
  [d.guaranteedCrit, m.guaranteedCrit, se.1.guaranteedCrit, se.2.guaranteedCrit]

/-- One source forces a hit and another one forbids it. -/
def Conflict (l : List Forced) : Prop := Forced.forceYes ∈ l ∧ Forced.forceNo ∈ l

/-- The rate of a kind of hit: 1 if forced, 0 if forbidden, the normal rate otherwise. -/
def RateIs (l : List Forced) (normal rate : ℚ) : Prop :=
  (Forced.forceYes ∈ l → rate = 1) ∧ (Forced.forceNo ∈ l → rate = 0) ∧
    (Forced.forceYes ∉ l → Forced.forceNo ∉ l → rate = normal)

/-- A flag that is unchanged, or that now forces a hit where nothing was said before. -/
def ForcedUp (f f' : Forced) : Prop := f' = f ∨ (f = .default ∧ f' = .forceYes)

/-- Status effects that are not weaker. -/
structure NoWeaker (s s' : StatusEffects) : Prop where
  critRateAdd : 0 ≤ s.critRateAdd ∧ s.critRateAdd ≤ s'.critRateAdd
  dhRateAdd : 0 ≤ s.dhRateAdd ∧ s.dhRateAdd ≤ s'.dhRateAdd
  damageMult : 0 ≤ s.damageMult ∧ s.damageMult ≤ s'.damageMult
  mainStatAdd : s.mainStatAdd ≤ s'.mainStatAdd
  mainStatMult : 0 ≤ s.mainStatMult ∧ s.mainStatMult ≤ s'.mainStatMult
  guaranteedCrit : ForcedUp s.guaranteedCrit s'.guaranteedCrit
  guaranteedDh : ForcedUp s.guaranteedDh s'.guaranteedDh

/-- A character whose main stat and direct hit are not below what a character has without gear. -/
def Grown (r : RawStats) : Prop := 600 ≤ r.mainStat ∧ baseSub r.version r.level ≤ r.dhStat

end Ama.Spec
