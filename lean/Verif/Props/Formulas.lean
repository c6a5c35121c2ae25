import Verif.Lemmas.FormulasByClass
import Verif.Examples.Rotation

/-!
# The numbers behind the damage (C97)
-/

namespace Ama

open Spec ComputeDamage Formulas

variable {raw : RawStats} {stats : Stats}

/-- C97.  The critical hit rate and bonus and the direct hit rate of a character are the linear functions of the
stats, rounded down to tenths of a percent; the job modifier, the multiplier of the traits and the weapon delay
are those of the job. -/
theorem C97_stats (hs : mkStats raw = .ok stats) :
    RoundedDown (1 / 1000) stats.processed.critRate (exactCritRate raw) ∧
    RoundedDown (1 / 1000) stats.processed.critBonus (exactCritBonus raw) ∧
    RoundedDown (1 / 1000) stats.processed.dhRate (exactDhRate raw) ∧
    stats.processed.jobMod = jobModifier raw.jobClass ∧
    stats.processed.traitDamageMult = traitMultiplier raw.jobClass ∧ stats.weaponDelay = delayOf raw := by
  have f := statFacts hs
  have p := mkStats_spec hs
  obtain ⟨b1, b2, b3, b4⟩ := critBonus_between hs
  refine ⟨⟨b3, b4⟩, ⟨b1, b2⟩, ?_, f.jobMod, f.trait, f.delay⟩
  have h := p.dh
  rw [StatFns.dh_eq f.row, p.dhStat] at h
  rw [← Except.ok.inj h]
  unfold RoundedDown exactDhRate
  simp only [row]
  have a1 := lt_npFloor (550 * (raw.dhStat - (levelNumbers raw).sub) / (levelNumbers raw).div)
  have a2 := npFloor_le (550 * (raw.dhStat - (levelNumbers raw).sub) / (levelNumbers raw).div)
  constructor <;> linarith

/-- C97.  The base damage is the product of potency, attack power, weapon damage, determination, tenacity (for
tanks), speed (for dots, and for auto-attacks of jobs with skill speed), the bonuses for guaranteed hits and the
multiplier of the skill, up to rounding: it is at most that product (but at least 1), and at least what is left of
the product if each factor and each intermediate result is rounded down as far as possible.  For all kinds of
damage. -/
theorem C97_base (hs : mkStats raw = .ok stats) {skill : Skill} {m : SkillModifier} {d : DamageSpec}
    (hd : skill.getDamageSpec m = .ok (some d)) (hpot : 0 < d.potency) (hn : NonNegDamage d)
    {se : StatusEffects × StatusEffects} (hc : 0 ≤ addedCrit se) (hp : 0 ≤ raw.numRolesInParty)
    (hw : 0 ≤ delayOf raw) (hu : ((factors raw d m se).minus (units raw d se)).NonNeg) {b : ℚ}
    (hb : getBaseDamage skill m stats se = .ok (some b)) :
    b ≤ max 1 (exactDamage raw d m se) ∧ leastDamage raw d m se ≤ b := by
  unfold getBaseDamage at hb
  rw [hd] at hb
  simp only [Py.ok_bind, hpot.ne', if_false] at hb
  obtain ⟨x, hx, hb⟩ := Py.bind_eq_ok.1 hb
  cases hb
  obtain ⟨g, y, h⟩ := byClass_steps hs hd hpot.le hp hc hu hn.1 hw hx
  obtain ⟨h1, h2⟩ := h.bounds hpot.le hn.2.1 hu
  exact ⟨max_le (h1.trans (le_max_right _ _)) (le_max_left _ _), h2.trans (le_max_left _ _)⟩

namespace Ex

/-- A White Mage and a Warrior of level 100. -/
def whiteMage : RawStats :=
  { wd := 146, mainStat := 5091, detStat := 2500, dhStat := 420, critStat := 3000, speedStat := 1000,
    jobClass := "WHM", version := "7.0", level := 100, healerOrCasterStrength := some 500 }

def warrior : RawStats :=
  { wd := 146, mainStat := 5000, detStat := 2500, dhStat := 1000, critStat := 3000, speedStat := 600,
    jobClass := "WAR", version := "7.0", level := 100, tenacity := some 900 }

def hitOf (c : DamageClass) (p : ℚ) : DamageSpec :=
  { potency := p, damageClass := c, guaranteedCrit := .forceYes, guaranteedDh := .forceYes }

def skillOf (c : DamageClass) (p : ℚ) : Skill := { name := "Hit", damageSpec := .single (some (hitOf c p)) }

/-- A buff of 20% critical hit rate and 10% direct hit rate, and a debuff of 10% critical hit rate. -/
def boosts : StatusEffects × StatusEffects :=
  ({ critRateAdd := 2 / 10, dhRateAdd := 1 / 10, mainStatAdd := 262 }, { critRateAdd := 1 / 10 })

instance (f : Factors) : Decidable f.NonNeg := by unfold Factors.NonNeg; infer_instance

/-- The hypotheses of C97 hold for a healer and a tank, for all kinds of damage, and for them the bounds differ by
less than 2%, except for the weak auto-attacks of the healer (4%). -/
example : ∀ c ∈ [DamageClass.direct, .magicalDot, .physicalDot, .pet, .auto], ∀ r ∈ [whiteMage, warrior],
    ((factors r (hitOf c 300) {} boosts).minus (units r (hitOf c 300) boosts)).NonNeg ∧
    0 ≤ addedCrit boosts ∧ 0 ≤ r.numRolesInParty ∧ 0 ≤ delayOf r ∧
    okAnd (mkStats r) (fun s => okAnd (getBaseDamage (skillOf c 300) {} s boosts) (·.isSome)) = true ∧
    exactDamage r (hitOf c 300) {} boosts * 96 / 100 < leastDamage r (hitOf c 300) {} boosts ∧
    ((c = .auto ∧ r.jobClass = "WHM") ∨
      exactDamage r (hitOf c 300) {} boosts * 98 / 100 < leastDamage r (hitOf c 300) {} boosts) := by
  decide +kernel

example : NonNegDamage (hitOf .direct 300) := ⟨by decide, by decide, fun x h => by cases h⟩

/-- The direct damage and the damage of auto-attacks of the White Mage: without rounding, and what the code gives. -/
example : 22592 < exactDamage whiteMage (hitOf .direct 300) {} boosts ∧
    okAnd (mkStats whiteMage) (fun s => okAnd (getBaseDamage (skillOf .direct 300) {} s boosts) (· = some 22495)) =
      true ∧ 22344 < leastDamage whiteMage (hitOf .direct 300) {} boosts ∧
    1306 < exactDamage whiteMage (hitOf .auto 300) {} boosts ∧
    okAnd (mkStats whiteMage) (fun s => okAnd (getBaseDamage (skillOf .auto 300) {} s boosts) (· = some 1286)) =
      true ∧ 1256 < leastDamage whiteMage (hitOf .auto 300) {} boosts := by
  decide +kernel

end Ex

end Ama
