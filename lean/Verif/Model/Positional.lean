import Verif.Model.Skill

/-!
# Model of `Utils.get_positional_condition` (`simulator/utils.py:71-156`)

The function returns a join of a set of conditions, and every caller passes it to
`add_to_condition`; the model returns the set (to be added with `SkillModifier.addConditions`).
-/

namespace Ama.Utils

/-- utils.py:80-84: the damage spec of the first follow-up that has one.  A damage spec that is itself
a dictionary has no attribute `potency`; it is kept as `none`, which raises the same error. -/
def firstFollowUpDamage : List FollowUp → Option (Option DamageSpec)
  | [] => none
  | f :: fs =>
    match f.skill.damageSpec with
    | .single none => firstFollowUpDamage fs
    | .single (some s) => some (some s)
    | .dict _ => some none

/-- utils.py:72-88: the dictionary `damage_spec_to_use`, if any -/
def damageSpecToUse (skill : Skill) : Option (Dict Conds (Option DamageSpec)) :=
  match skill.damageSpec with
  | .dict d => some d
  | .single _ =>
    match skill.followUpSkills with
    | .single _ => none
    | .dict d =>
      match d.filterMap (fun kv => (firstFollowUpDamage kv.2).map (fun s => (kv.1, s))) with
      | [] => none
      | fakes => some fakes

/-- utils.py:118-121 and 139-142: the spec in the dictionary for the given conditions; `None` has no
attribute `potency`. -/
def specFor (d : Dict Conds (Option DamageSpec)) (conds : Conds) : Py DamageSpec := do
  let key ← getBestKey (Dict.keys d) conds
  match ← Dict.get d key with
  | none => .error .attributeError
  | some s => .ok s

/-- utils.py:139-149: the bonus percentage a skill would show under the given conditions -/
def potentialBonus (d : Dict Conds (Option DamageSpec)) (minPotency : ℚ) (conds : Conds) : Py ℤ := do
  let s ← specFor d conds
  let minPotencyToUse := match s.useMinPotency with
    | some x => if x = 0 then minPotency else x
    | none => minPotency
  if s.potency = 0 then .error .zeroDivisionError
  else return pyInt (100 * (s.potency - minPotencyToUse) / s.potency)

/-- utils.py:133-156: try the candidates in order -/
def tryCandidates (d : Dict Conds (Option DamageSpec)) (minPotency bonus : ℚ)
    (init : SkillModifier) : List SkillModifier → Py Conds
  | [] => .error .valueError
  | c :: cs => do
    if ((← potentialBonus d minPotency c.withCondition : ℤ) : ℚ) = bonus then
      return (c.addConditions init.withCondition).withCondition
    else tryCandidates d minPotency bonus init cs

/-- utils.py:71-156 `get_positional_condition` -/
def getPositionalCondition (skill : Skill) (init : SkillModifier) : Py Conds :=
  match damageSpecToUse skill with
  | none => .ok ∅
  | some d =>
    if (d.filter (fun kv => decide ("No Positional" ∈ kv.1))).length = 0 then .ok init.withCondition
    else match init.bonusPercent with
      | none => .ok init.withCondition
      | some bonus =>
        let m := skill.ignoredConditionsForBonusPotency.foldl SkillModifier.removeFromCondition init
        if bonus = 0 then .ok (insert "No Positional" init.withCondition)
        else do
          let noComboNoPos := m.addToCondition "No Combo, No Positional"
          let minPotency := (← specFor d noComboNoPos.withCondition).potency
          let noCombo := m.addToCondition "No Combo"
          let noPos := m.addToCondition "No Positional"
          tryCandidates d minPotency bonus init [m, noPos, noCombo, noComboNoPos]

/-- The call pattern at rotation_builder.py:519-524, 589-594 and damage_builder.py:83-88, 162-167:
add the result to the modifier, a `ValueError` is only printed. -/
def addPositional (skill : Skill) (m : SkillModifier) : Py SkillModifier :=
  match getPositionalCondition skill m with
  | .ok s => .ok (m.addConditions s)
  | .error .valueError => .ok m
  | .error e => .error e

end Ama.Utils
