import Verif.Spec.Safe
import Verif.Model.ComputeDamage

/-!
# Specification vocabulary for rotations that can be simulated
-/

namespace Ama.Spec

/-- One says that it must happen, the other that it must not. -/
def Opposed (a b : Forced) : Prop := a = .forceYes ∧ b = .forceNo

/-- What decides about the critical and direct hits of the skill `k`, used with the modifier `m₀`, when it
deals the damage `d`: that damage, the modifier, and every effect of a skill in play that may affect `k`. -/
inductive Decides (rb : RotationBuilder) (m₀ : SkillModifier) (k : SkillCore) (d : DamageSpec) :
    Forced → Forced → Prop
  | damage : Decides rb m₀ k d d.guaranteedCrit d.guaranteedDh
  | use : Decides rb m₀ k d m₀.guaranteedCrit m₀.guaranteedDh
  | effect (a : SkillCore) (m : SkillModifier) (s : StatusEffectSpec) : InPlay rb a →
      a.getBuffSpec m = .ok (some s) ∨ a.getDebuffSpec m = .ok (some s) → Allowed k a.name s →
      Decides rb m₀ k d s.guaranteedCrit s.guaranteedDh

/-- The damage of the skill, used with the modifier `m₀`, can be computed: it is of a known class; healers
and casters have a strength if it is that of an auto-attack; and no two of the things that decide about
critical and direct hits contradict each other. -/
def Simulable (rb : RotationBuilder) (m₀ : SkillModifier) (k : SkillCore) : Prop :=
  ∀ m d, m₀.withCondition ⊆ m.withCondition → k.getDamageSpec m = .ok (some d) →
    d.damageClass ≠ .unknown ∧
    (d.damageClass = .auto → JobClassFns.isHealer rb.stats.version rb.stats.jobClass = true ∨
      JobClassFns.isCaster rb.stats.version rb.stats.jobClass = true →
        ∃ x, rb.stats.healerOrCasterStrength = some x) ∧
    ∀ c h c' h', Decides rb m₀ k d c h → Decides rb m₀ k d c' h' → ¬ Opposed c c' ∧ ¬ Opposed h h'

/-- The rotation can be simulated: the damage of the presses, of their follow-ups and of auto-attacks can be
computed, and a tank has a tenacity. -/
structure SimulableRotation (rb : RotationBuilder) : Prop where
  tank : JobClassFns.isTank rb.stats.version rb.stats.jobClass = true → ∃ x, rb.stats.tenacity = some x
  presses : ∀ skill m job, Asked rb skill m job → Simulable rb m skill.toSkillCore
  followUps : ∀ skill m job m' fs, Asked rb skill m job → m.withCondition ⊆ m'.withCondition →
    skill.getFollowUpSkills m' = .ok fs → ∀ f ∈ fs, Simulable rb {} f.skill
  autos : rb.enableAutos = true → ∀ skill delay, AutoSkill rb skill delay →
    Simulable rb {} skill.toSkillCore

/-- What else a rotation of shipped skills must respect to be simulated: a tank has a tenacity; healers and
casters have a strength; and no press forbids a critical or direct hit, or forces one of Detonator, which
like the end of Wildfire is never a critical or direct hit. -/
structure Complete (rb : RotationBuilder) : Prop where
  tank : JobClassFns.isTank rb.stats.version rb.stats.jobClass = true → ∃ x, rb.stats.tenacity = some x
  strength : JobClassFns.isHealer rb.stats.version rb.stats.jobClass = true ∨
    JobClassFns.isCaster rb.stats.version rb.stats.jobClass = true → ∃ x, rb.stats.healerOrCasterStrength = some x
  presses : ∀ skill m job, Asked rb skill m job → ∀ f ∈ [m.guaranteedCrit, m.guaranteedDh],
    f ≠ .forceNo ∧ (skill.name ∈ ["Wildfire (dot)", "Detonator"] → f ≠ .forceYes)

end Ama.Spec
