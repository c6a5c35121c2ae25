import Verif.Spec.Damage
import Verif.Spec.StatusEffects

/-!
# Specification of status effects in the result of the damage builder
-/

namespace Ama.Spec

/-- The event gives the effect `name` to the slot. -/
def GivesTo (slot : Slot) (name : String) (e : Event) : Prop :=
  e.skill.name = name ∧
  match slot with
  | .buffs => True
  | .debuffs target => target ∈ e.targets

instance (slot : Slot) (name : String) (e : Event) : Decidable (GivesTo slot name e) := by
  unfold GivesTo
  cases slot <;> infer_instance

/-- The effects of the slot in an instance of damage. -/
def Slot.seen (x : DamageInstance) : Slot → StatusEffects
  | .buffs => x.buffs
  | .debuffs _ => x.debuffs

/-- The snapshot flag of an event for the effects of the slot. -/
def Slot.status (e : Event) : Slot → SnapStatus
  | .buffs => e.snapshotBuffs
  | .debuffs _ => e.snapshotDebuffs

/-- The slot matters for hits on the target. -/
def Slot.Concerns (target : String) : Slot → Prop
  | .buffs => True
  | .debuffs t => t = target

/-- When the effects of the slot are determined for the hits of an event: at its application if it does
not snapshot them, at its snapshot if it does. -/
def decidedAt (slot : Slot) (e : Event) : ℚ :=
  if slot.status e = .flag false then appliedAt e else e.primary

/-- When the effect ends that was given at time `s`, if so far it lasts until `w`.  An effect that is
not running starts anew, unless it only extends; one that is running is extended up to its maximal
duration, if its specification says so. -/
def endAfter (spec : StatusEffectSpec) (w : Option (WithTop ℚ)) (s : ℚ) : Option (WithTop ℚ) :=
  match w.filter (fun endT => (s : WithTop ℚ) ≤ endT) with
  | none => if spec.extendOnly then none else some (s + spec.duration)
  | some endT =>
    some (s + if spec.extendsExistingDuration then min spec.maxDuration (remaining endT s + spec.duration)
      else remaining endT s)

/-- At time `t`, the effect given at the listed times (in order) is running. -/
def Running (spec : StatusEffectSpec) (times : List ℚ) (t : ℚ) : Prop :=
  ∃ endT, times.foldl (endAfter spec) none = some endT ∧ (t : WithTop ℚ) ≤ endT

/-- The effect can be used without limit and does not clear others. -/
structure Unlimited (spec : StatusEffectSpec) : Prop where
  uses : spec.numUses = ⊤
  maxUses : spec.maxNumUses = ⊤
  clear : spec.clearAllStatusEffects = false

/-- What the event may do to the effect `name` of the slot, under all conditions: give it with
specification `spec`, or nothing. -/
def GivesOrLeaves (slot : Slot) (name : String) (spec : StatusEffectSpec) (e : Event) : Prop :=
  (GivesTo slot name e → ∀ m, Grants slot e.skill.toSkillCore m e.targets spec) ∧
  (¬ GivesTo slot name e → ∀ t m, Leaves slot name (.add t e.skill.toSkillCore m e.targets))

/-- A timeline on which one effect can be followed: its events are regular (see C39), hit distinct
targets, do not carry effects yet, and either give the effect or leave it alone. -/
structure Followed (slot : Slot) (name : String) (spec : StatusEffectSpec) (events : Events) : Prop where
  timeline : Timeline events
  regular : ∀ e ∈ events.q, Regular e
  targets : ∀ e ∈ events.q, e.targets ≠ [] ∧ e.targets.Nodup
  flags : ∀ e ∈ events.q, ∃ b, slot.status e = .flag b
  gives : ∀ e ∈ events.q, GivesOrLeaves slot name spec e

/-- The event asks for the effects of the slot, and its skill may be affected by the effect. -/
def Eats (slot : Slot) (name : String) (spec : StatusEffectSpec) (e : Event) : Prop :=
  Allowed e.skill.toSkillCore name spec ∧
  match slot with
  | .buffs => True
  | .debuffs target => target ∈ e.targets

end Ama.Spec
