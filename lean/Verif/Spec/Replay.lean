import Verif.Spec.Builder

/-!
# Specification of playing a sequence again at the times worked out for it
-/

namespace Ama.Spec

/-- No skill of the library has a negative animation lock, under any conditions. -/
def NonnegLocks (lib : SkillLibrary) : Prop :=
  ∀ name job skill, lib.getSkill name job = .ok skill → ∀ (m : SkillModifier) (ts : TimingSpec),
    skill.getTimingSpec m = .ok (some ts) → 0 ≤ ts.animationLock

/-- Use the skill of the call next in the sequence, whatever its time. -/
def AddCall.next (rb : RotationBuilder) (c : AddCall) : Py RotationBuilder :=
  rb.addNext c.skillName c.modifier c.jobClass 1 c.targets

/-- The time of the call in milliseconds, as `add` stores it. -/
def AddCall.ms (c : AddCall) : ℚ := ((pyInt (1000 * c.t) : ℤ) : ℚ)

end Ama.Spec
