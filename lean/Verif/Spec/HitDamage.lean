import Verif.Spec.Formulas
import Verif.Spec.Simulation

/-!
# Specification vocabulary: from the base damage of a hit to its damage, without any rounding
-/

namespace Ama.Spec

/-- The numbers the damage of a hit is made of: base damage, critical hit rate and bonus, direct hit rate, and the
multiplier of the traits, which the skill can override. -/
structure HitNumbers (raw : RawStats) (stats : Stats) (x : DamageInstance) (base cr bonus dr trait : ℚ) : Prop where
  base : ComputeDamage.getBaseDamage x.skill x.modifier stats (x.buffs, x.debuffs) = .ok (some base)
  rates : ComputeDamage.critRatesAndBonuses stats x.skill x.modifier (x.buffs, x.debuffs) = .ok (dr, cr, bonus)
  bonus : RoundedDown (1 / 1000) bonus (exactCritBonus raw)
  trait : ∃ d, x.skill.getDamageSpec x.modifier = .ok (some d) ∧
    trait = d.traitDamageMultOverride.getD (traitMultiplier raw.jobClass)

/-- The product of the damage multipliers of buffs and debuffs. -/
def effectMultiplier (x : DamageInstance) : ℚ := x.buffs.damageMult * x.debuffs.damageMult

/-- What a hit does with one point of damage: critical hits add their bonus, direct hits a quarter; traits, buffs
and debuffs multiply. -/
def hitMultiplier (bonus trait mult : ℚ) (crit dh : Bool) : ℚ :=
  (1 + if crit then bonus else 0) * (1 + if dh then 1 / 4 else 0) * trait * mult

/-- The same on average. -/
def meanMultiplier (cr bonus dr trait mult : ℚ) : ℚ := (1 + cr * bonus) * (1 + dr / 4) * trait * mult

/-- What is lost by rounding down before the first step, and after each of the four steps. -/
def hitLoss (bonus trait mult : ℚ) : ℚ := (((1 + bonus + 1) * (1 + 1 / 4) + 1) * trait + 1) * mult + 1

end Ama.Spec
