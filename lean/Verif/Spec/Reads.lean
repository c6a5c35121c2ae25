import Verif.Spec.Formulas

/-!
# Specification vocabulary: the stats that count for a kind of hit (C116)
-/

namespace Ama.Spec

/-- Two characters of the same job that agree in all stats that count for hits of a kind.  The main stat counts for
all but autos of healers and casters, for which their strength counts; the roles in the party do not count for pets;
the speed counts for dots and for autos of jobs with skill speed; the weapon delay for autos; the tenacity for tanks. -/
structure SameFor (c : DamageClass) (r r' : RawStats) : Prop where
  job : r'.jobClass = r.jobClass
  version : r'.version = r.version
  level : r'.level = r.level
  wd : r'.wd = r.wd
  det : r'.detStat = r.detStat
  dh : r'.dhStat = r.dhStat
  crit : r'.critStat = r.critStat
  main : ¬ (c = .auto ∧ Mage r.jobClass) → r'.mainStat = r.mainStat
  strength : c = .auto → Mage r.jobClass → r'.healerOrCasterStrength = r.healerOrCasterStrength
  roles : c ≠ .pet → r'.numRolesInParty = r.numRolesInParty
  speed : c = .magicalDot ∨ c = .physicalDot ∨ (c = .auto ∧ SkillSpeed r.jobClass) → r'.speedStat = r.speedStat
  delay : c = .auto → r'.weaponDelay = r.weaponDelay
  tenacity : Tank r.jobClass → r'.tenacity = r.tenacity

end Ama.Spec
