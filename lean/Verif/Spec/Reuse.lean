import Verif.Model.Skill

/-!
# Skills without lasting consequences
-/

namespace Ama.Spec

/-- Whatever the conditions, using the skill grants no effect, changes no gauge and has no part in a
combo. -/
structure LeavesNothing (skill : Skill) : Prop where
  buffs : ∀ m r, skill.getBuffSpec m = .ok r → r = none
  debuffs : ∀ m r, skill.getDebuffSpec m = .ok r → r = none
  gauges : ∀ m l, skill.getJobResourceSpec m = .ok l → l = []
  combos : ∀ m l, skill.getComboSpec m = .ok l → l = []

end Ama.Spec
