import Verif.Model.DamageSimulator
import Verif.Spec.Numbers

/-!
# Specification vocabulary: simulated damage
-/

namespace Ama.Spec

/-- Numbers that `np.random.rand` can return. -/
def Draw.Valid (w : Draw) : Prop :=
  (0 ≤ w.spread ∧ w.spread < 1) ∧ (0 ≤ w.crit ∧ w.crit < 1) ∧ (0 ≤ w.dh ∧ w.dh < 1)

/-- The numbers drawn for the two kinds of hits are not exactly zero. -/
def Draw.Positive (w : Draw) : Prop := 0 < w.crit ∧ 0 < w.dh

/-- The place in a report of the outcome with the given critical and direct hit status: "No crit, no DH",
"Crit, no DH", "No crit, DH", "Crit, DH". -/
def place : Bool → Bool → ℕ
  | false, false => 0
  | true, false => 1
  | false, true => 2
  | true, true => 3

/-- A probability. -/
def IsProb (p : ℚ) : Prop := 0 ≤ p ∧ p ≤ 1

/-- The probability of a hit with rate `p`, or of no hit. -/
def probOf (hit : Bool) (p : ℚ) : ℚ := if hit then p else 1 - p

/-- No multiplier of the damage instance is negative. -/
def NonNegMults (x : DamageInstance) : Prop :=
  0 ≤ x.buffs.damageMult ∧ 0 ≤ x.debuffs.damageMult ∧
    ∀ d t, x.skill.getDamageSpec x.modifier = .ok (some d) → d.traitDamageMultOverride = some t → 0 ≤ t

/-- The damage of the instance can be computed. -/
def Computable (stats : Stats) (x : DamageInstance) : Prop :=
  (∃ b, ComputeDamage.getBaseDamage x.skill x.modifier stats (x.buffs, x.debuffs) = .ok (some b)) ∧
    ∃ r, ComputeDamage.critRatesAndBonuses stats x.skill x.modifier (x.buffs, x.debuffs) = .ok r

/-- The second moment of the uniform distribution between `a` and `b`. -/
def secondMoment (a b : ℚ) : ℚ := (a ^ 2 + a * b + b ^ 2) / 3

/-- The mean of the uniform distribution between `a` and `b`. -/
def firstMoment (a b : ℚ) : ℚ := (a + b) / 2

/-- Two damaging hits by the same skill, or by skills that differ in potency only, with the same modifier;
the second one has not less potency and no weaker buffs and debuffs. -/
structure NoWeakerHit (x x' : DamageInstance) : Prop where
  modifier : x'.modifier = x.modifier
  buffs : NoWeaker x.buffs x'.buffs
  debuffs : NoWeaker x.debuffs x'.debuffs
  spec : ∃ d potency', x.skill.getDamageSpec x.modifier = .ok (some d) ∧
    x'.skill.getDamageSpec x'.modifier = .ok (some { d with potency := potency' }) ∧
    (0 ≤ d.potency ∧ d.potency ≤ potency') ∧ NonNegDamage d ∧
    ∀ t, d.traitDamageMultOverride = some t → 0 ≤ t

end Ama.Spec
