import Verif.Model.Positional

/-!
# Specification vocabulary for inferring positionals from a bonus percentage
-/

namespace Ama.Spec

/-- The log shows a bonus of `b` percent for this skill used under the conditions `conds` plus
`extra`: its potency exceeds by `b` percent of itself (cut to a whole number) the potency without
combo and positional (or the skill's own minimum). -/
def ShowsBonus (skill : Skill) (conds extra : Conds) (b : ℚ) : Prop :=
  ∃ s low : DamageSpec, skill.getDamageSpec { withCondition := conds ∪ extra } = .ok (some s) ∧
    skill.getDamageSpec { withCondition := conds ∪ {"No Combo", "No Positional"} } = .ok (some low) ∧
    s.potency ≠ 0 ∧
    let base := match s.useMinPotency with
      | some x => if x = 0 then low.potency else x
      | none => low.potency
    b = pyInt (100 * (s.potency - base) / s.potency)

/-- The explanations for a bonus, in the order they are tried. -/
def explanations : List Conds := [∅, {"No Positional"}, {"No Combo"}, {"No Combo", "No Positional"}]

end Ama.Spec
