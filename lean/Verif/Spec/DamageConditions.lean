import Verif.Spec.Damage
import Verif.Spec.Trackers

/-!
# Specification of the conditions, combos and gauges in the result of the damage builder
-/

namespace Ama.Spec

/-- The conditions that a text adds to a modifier. -/
def textConds (text : String) : Conds :=
  if text.toList.length = 0 then ∅ else Utils.canonicalizeCondition text

/-- An event as the rotation builder makes it: nothing about it was determined yet. -/
structure Untouched (e : Event) : Prop where
  gauges : e.jobConditionalProcessed = false
  change : e.jobResourcesAdded = false
  combo : e.comboConditionalProcessed = false

/-- What determines the conditions of an instance, besides the event itself. -/
structure Sources where
  /-- the gauges -/
  gauge : String
  /-- the outcome of the combo -/
  combo : String
  /-- what positional inference adds -/
  positional : Conds
  /-- conditions of the buffs -/
  buffs : String
  /-- conditions of the debuffs -/
  debuffs : String

/-- The conditions of an instance: those of the event, those of each source, and the number of the
target if there are several. -/
def Sources.conditions (src : Sources) (h : Hit) : Conds :=
  h.event.modifier.withCondition ∪ textConds src.gauge ∪ textConds src.combo ∪ src.positional ∪
    textConds src.buffs ∪ textConds src.debuffs ∪
    (if h.event.targets.length > 1 then {"Target " ++ toString (h.index + 1)} else ∅)

/-- What positional inference adds to a modifier: the result of the function, unless it fails with
`ValueError` or is the empty condition. -/
def PositionalAdds (skill : Skill) (m : SkillModifier) (conds : Conds) : Prop :=
  (∃ c, Utils.getPositionalCondition skill m = .ok c ∧ conds = if c = {""} then ∅ else c) ∨
  (Utils.getPositionalCondition skill m = .error .valueError ∧ conds = ∅)

/-- `At` holds when the event of the hit is first processed, if `now` is set or the event has no
separate snapshot, and when its application on the target is processed otherwise. -/
def Hit.When (h : Hit) (tr : List (DamageState × Event)) (now : Bool)
    (At : DamageState → Event → Prop) : Prop :=
  if now = true ∨ h.event.secondary = none then ∃ s, (s, h.event) ∈ tr ∧ At s h.event
  else ∃ s e, (s, e) ∈ tr ∧ h.AppliedAs e ∧ At s e

/-- Where the sources come from, in an execution. -/
structure Sources.From (src : Sources) (tr : List (DamageState × Event)) (h : Hit) (x : DamageInstance) :
    Prop where
  /-- the gauges are those at the snapshot, if the skill snapshots them, else at the application -/
  gauge : h.When tr h.event.skill.jobResourcesSnapshot (fun s e =>
    ∃ r, s.db.res.compile e.primary e.skill.name = .ok (src.gauge, r))
  /-- combo and positional are determined when the event is first processed -/
  combo : ∃ s m, (s, h.event) ∈ tr ∧ Widens h.event.modifier m ∧
    m.withCondition ⊆ x.modifier.withCondition ∧
    (∃ r, s.db.combo.compileAndUpdate h.event.primary h.event.skill.toSkillCore m = .ok (src.combo, r)) ∧
    PositionalAdds h.event.skill (m.addToCondition src.combo) src.positional
  /-- the conditions of the buffs come with the buffs -/
  buffs : match h.event.snapshotBuffs with
    | .done b => src.buffs = "" ∧ x.buffs = b
    | .flag now => h.When tr now (fun s e => ∃ se,
        (s.db.se.expire e.primary).compileBuffs e.primary e.skill.toSkillCore =
          .ok ((x.buffs, src.buffs), se))
  /-- the conditions of the debuffs come with the debuffs -/
  debuffs : h.event.targets.Nodup → match h.event.snapshotDebuffs with
    | .done d => src.debuffs = "" ∧ x.debuffs = d
    | .flag now => h.When tr now (fun s e => ∃ se,
        (s.db.se.expire e.primary).compileDebuffs e.primary e.skill.toSkillCore h.target =
          .ok ((x.debuffs, src.debuffs), se))

/-- When the gauges are read for a hit. -/
def Hit.gaugeTime (h : Hit) : ℚ :=
  if h.event.skill.jobResourcesSnapshot = true ∨ h.event.secondary = none then h.event.primary
  else h.time

end Ama.Spec
