import Verif.Spec.Autos
import Verif.Spec.Dots

/-!
# Specification of repeated calls of `get_skill_timing`
-/

namespace Ama.Spec

/-- Call `get_skill_timing` `k` times, one after the other, on the same builder. -/
def askAgain (fuel : ℕ) : ℕ → RotationBuilder → Py RotationBuilder
  | 0, rb => .ok rb
  | k + 1, rb => do askAgain fuel k (← rb.getSkillTiming fuel)

/-- All dots recorded in the builder were applied at whole milliseconds. -/
def WholeApplications (rb : RotationBuilder) : Prop :=
  ∀ target f, ∀ a ∈ appsOf rb.qDot target f, Whole a.application

/-- Nothing makes an auto-attack come before the previous one: neither the weapon nor the traits nor
the effects of the skills. -/
structure Steady (rb : RotationBuilder) : Prop where
  weapon : 0 ≤ rb.stats.weaponDelay
  trait : rb.stats.processed.traitAutoAttackDelayReduction ≤ 1
  skills : ∀ rb₁, beforeAutos rb = .ok rb₁ → ∀ e ∈ rb₁.events.q, Moderate e.skill
  auto : ∀ skill delay, AutoSkill rb skill delay → Moderate skill

end Ama.Spec
