import Verif.Spec.Dots
import Verif.Spec.DamageEffects
import Verif.Spec.DamageConditions

/-!
# Specification of the presses of a rotation: effects, combos and gauges
-/

namespace Ama.Spec

/-- One use of a skill by the rotation builder: what was asked for, and what was determined when it was
pressed. -/
structure Pressed where
  t : ℚ
  skill : Skill
  asked : SkillModifier
  targets : List String
  buffs : StatusEffects
  debuffs : StatusEffects
  /-- the conditions that the buffs, the debuffs, the gauges and the combo add -/
  buffConds : String
  debuffConds : String
  gauge : String
  combo : String
  /-- what positional inference adds -/
  positional : Conds
  timing : Option TimingSpec
  cast : ℚ
  application : ℚ
  followUps : List FollowUp

namespace Pressed

/-- The modifier with which the combo is checked: the conditions of the effects and gauges count. -/
def beforeCombo (u : Pressed) : SkillModifier :=
  { u.asked with withCondition := (u.asked.withCondition ∪ textConds u.buffConds ∪
      textConds u.debuffConds ∪ textConds u.gauge) }

/-- The modifier with which the positional is inferred. -/
def beforePositional (u : Pressed) : SkillModifier :=
  { u.asked with withCondition := (u.asked.withCondition ∪ textConds u.buffConds ∪
      textConds u.debuffConds ∪ textConds u.gauge ∪ textConds u.combo) }

/-- The final modifier. -/
def modifier (u : Pressed) : SkillModifier :=
  { u.asked with withCondition := (u.asked.withCondition ∪ textConds u.buffConds ∪
      textConds u.debuffConds ∪ textConds u.gauge ∪ textConds u.combo ∪ u.positional) }

/-- When the use snapshots. -/
def snapshot (u : Pressed) : ℚ := snapshotsAt u.t u.cast

/-- The use follows from the data of its skill. -/
structure Proper (stats : Stats) (u : Pressed) : Prop where
  positional : PositionalAdds u.skill u.beforePositional u.positional
  timing : u.skill.getTimingSpec u.modifier = .ok u.timing
  cast : RotationBuilder.getCastTime stats u.timing u.modifier u.buffs = .ok u.cast
  applied : ∀ ts, u.timing = some ts → u.application = appliesAt u.t u.cast u.modifier ts
  untimed : u.timing = none → u.application = u.t + u.cast
  followUps : u.skill.getFollowUpSkills u.modifier = .ok u.followUps

/-- The follow-ups that are not dots: when they are applied, and on which targets. -/
def later (u : Pressed) : List (ℚ × SkillCore × List String) :=
  (u.followUps.filter (fun f => f.dotDuration.isNone)).map (fun f =>
    (u.application + f.delayAfterParentApplication, f.skill,
      if f.primaryTargetOnly then u.targets.take 1 else u.targets))

/-- What the use does to the effects: it applies its own when it is applied, and those of its
follow-ups when they are. -/
def effectOps (u : Pressed) : List TrackerOp :=
  .add u.application u.skill.toSkillCore u.modifier u.targets ::
    u.later.map (fun x => .add x.1 x.2.1 {} x.2.2)

/-- Everything the use asks of the tracker of the effects.  (Debuffs are always those of the target
called "Default Target".) -/
def history (u : Pressed) : List TrackerOp :=
  [.expire u.t, .buffs u.t u.skill.toSkillCore,
    .debuffs u.t u.skill.toSkillCore SimConsts.DEFAULT_TARGET] ++ u.effectOps

/-- What the use does to the gauges: it changes them when it snapshots, its follow-ups when they are
applied. -/
def gaugeOps (u : Pressed) : List GaugeOp :=
  .add u.snapshot u.skill.toSkillCore u.modifier :: u.later.map (fun x => .add x.1 x.2.1 {})

/-- The events of the use: one for itself and one for each follow-up that is not a dot. -/
def Makes (u : Pressed) (events : List Event) : Prop :=
  ∃ main new, events = main :: new ∧
    UseEvent u.skill u.modifier u.targets u.snapshot u.application main ∧
    List.Forall₂ (fun (fi : FollowUp × ℕ) e =>
      FollowUpEvent fi.1 fi.2 u.targets u.snapshot u.application e)
      (u.followUps.zipIdx.filter (fun fi => fi.1.dotDuration.isNone)) new

/-- The effects of the slot that the use gets. -/
def seen (u : Pressed) : Slot → StatusEffects
  | .buffs => u.buffs
  | .debuffs _ => u.debuffs

/-- The use as a press of the sequence (see `Earliest`). -/
structure Occupies (stats : Stats) (u : Pressed) (s : SeqSlot) : Prop where
  t : s.t = u.t
  skill : s.skill = u.skill
  modifier : s.modifier = u.modifier
  buffs : s.buffs = u.buffs
  debuffs : s.debuffs = u.debuffs
  timing : u.timing = some s.timing
  cast : s.cast = u.cast
  recast : s.Gcd → RotationBuilder.recastTime stats s.timing s.buffs s.debuffs = .ok s.recast

end Pressed

/-- Perform operations of the tracker, ignoring what they return. -/
def runEffects (tr : StatusEffectTracker) : List TrackerOp → Py StatusEffectTracker
  | [] => .ok tr
  | op :: ops => do
    let (_, tr) ← op.exec tr
    runEffects tr ops

/-- The uses are made one after the other, starting without effects, combos and resources. -/
structure Played (rb : RotationBuilder) (us : List Pressed) : Prop where
  /-- the outcomes of the combos are those of the combo tracker (see C21) -/
  combos : ∃ breakers tr, rb.lib.getAllComboBreakers rb.stats.jobClass = .ok breakers ∧
    runCombo { comboBreakers := breakers }
      (us.map fun u => ⟨u.t, u.skill.toSkillCore, u.beforeCombo⟩) = .ok (us.map (·.combo), tr)
  /-- the gauges are what the gauge tracker says after the changes of all uses before (see C16) -/
  gauges : ∃ settings, rb.lib.getAllResourceSettings rb.stats.jobClass = .ok settings ∧
    ∀ l u r, us = l ++ u :: r → ∃ ops tr tr', ops.filter (·.isAdd) = l.flatMap Pressed.gaugeOps ∧
      runGauge (JobResourceTracker.init settings) ops = .ok tr ∧
      tr.compile u.t u.skill.name = .ok (u.gauge, tr')
  /-- the effects are what the tracker of the effects says after all uses before (see C71, C72) -/
  effects : ∀ l u r, us = l ++ u :: r → ∃ tr tr₁ tr₂,
    runEffects { priority := rb.priority } (l.flatMap Pressed.history) = .ok tr ∧
    (tr.expire u.t).compileBuffs u.t u.skill.toSkillCore = .ok ((u.buffs, u.buffConds), tr₁) ∧
    tr₁.compileDebuffs u.t u.skill.toSkillCore = .ok ((u.debuffs, u.debuffConds), tr₂)

/-! ## One effect -/

open Classical in
/-- The operation applies the effect `name` in the slot at the time. -/
noncomputable def appliesEffect (slot : Slot) (name : String) : TrackerOp → Option ℚ
  | .add t skill _ targets =>
    if skill.name = name ∧ ∀ target, slot = .debuffs target → target ∈ targets then some t else none
  | _ => none

/-- The times at which the use applies the effect `name` in the slot. -/
noncomputable def Pressed.gives (slot : Slot) (name : String) (u : Pressed) : List ℚ :=
  u.effectOps.filterMap (appliesEffect slot name)

/-- Whatever the use does either applies the effect with the specification or leaves it alone. -/
def Pressed.GivesOrLeaves (slot : Slot) (name : String) (spec : StatusEffectSpec) (u : Pressed) : Prop :=
  ∀ t skill m targets, .add t skill m targets ∈ u.effectOps →
    ((appliesEffect slot name (.add t skill m targets)).isSome → Grants slot skill m targets spec) ∧
    (appliesEffect slot name (.add t skill m targets) = none →
      Leaves slot name (.add t skill m targets))

/-- The slots that presses look at. -/
def LookedAt (slot : Slot) : Prop := slot = .buffs ∨ slot = .debuffs SimConsts.DEFAULT_TARGET

/-- A list of uses over which one effect can be followed: it is in no priority group, and every use
either applies it or leaves it alone. -/
structure Traced (rb : RotationBuilder) (us : List Pressed) (slot : Slot) (name : String)
    (spec : StatusEffectSpec) : Prop where
  played : Played rb us
  looked : LookedAt slot
  alone : name ∉ rb.priority
  clear : spec.clearAllStatusEffects = false
  gives : ∀ u ∈ us, u.GivesOrLeaves slot name spec
  ordered : us.Pairwise (fun v w => v.t ≤ w.t)

/-- The applications of the effect by the uses. -/
noncomputable def givenBy (slot : Slot) (name : String) (us : List Pressed) : List ℚ :=
  us.flatMap (Pressed.gives slot name)

end Ama.Spec
