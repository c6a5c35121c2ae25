import Verif.Model.Skill

/-!
# The potency of a skill with its follow-ups
-/

namespace Ama.Spec

/-- The potency of a damage specification, 0 if there is none. -/
def potencyOf : Option DamageSpec → ℚ
  | some d => d.potency
  | none => 0

/-- What one use of a skill under the given conditions announces: its own potency and those of its follow-ups, a dot
counted for one tick. -/
def announced (s : Skill) (m : SkillModifier) : Py ℚ := do
  let d ← s.getDamageSpec m
  let fs ← s.getFollowUpSkills m
  let ds ← fs.mapM (fun f => f.skill.getDamageSpec m)
  return potencyOf d + (ds.map potencyOf).sum

end Ama.Spec
