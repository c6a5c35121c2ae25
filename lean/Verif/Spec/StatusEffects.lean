import Verif.Model.StatusEffectTracker

/-!
# Specification vocabulary for status effects
-/

namespace Ama.Spec

/-- The effect named `name` with specification `spec` may affect `skill`: it is not on the skill's
deny-list, and the skill is on the effect's allow-list if there is one. -/
def Allowed (skill : SkillCore) (name : String) (spec : StatusEffectSpec) : Prop :=
  name ∉ skill.statusEffectDenylist ∧ ∀ al, spec.skillAllowlist = some al → skill.name ∈ al

/-- `name` is an active effect in `es` that has started by time `t` and may affect `skill`. -/
def Valid (es : Effects) (t : ℚ) (skill : SkillCore) (name : String) : Prop :=
  ∃ e, (name, e) ∈ es ∧ e.start ≤ t ∧ Allowed skill name e.spec

/-- Some effect listed before `name` in the priority list satisfies `P`. -/
def Outranked (priority : List String) (P : String → Prop) (name : String) : Prop :=
  ∃ l p r, priority = l ++ p :: r ∧ P p ∧ name ∈ r

/-- All dictionaries of the tracker have distinct keys (as Python dictionaries do). -/
def WellFormed (tr : StatusEffectTracker) : Prop :=
  (Dict.keys tr.buffs).Nodup ∧ (Dict.keys tr.debuffs).Nodup ∧
  ∀ kv ∈ tr.debuffs, (Dict.keys kv.2).Nodup

/-- The public operations of the tracker. -/
inductive TrackerOp
  /-- `expire_status_effects(t)` -/
  | expire (t : ℚ)
  /-- `add_to_status_effects(t, skill, modifier, targets)` -/
  | add (t : ℚ) (skill : SkillCore) (m : SkillModifier) (targets : List String)
  /-- `compile_buffs(t, skill)` -/
  | buffs (t : ℚ) (skill : SkillCore)
  /-- `compile_debuffs(t, skill, target)` -/
  | debuffs (t : ℚ) (skill : SkillCore) (target : String)

/-- The time an operation happens at. -/
def TrackerOp.time : TrackerOp → ℚ
  | .expire t => t
  | .add t _ _ _ => t
  | .buffs t _ => t
  | .debuffs t _ _ => t

/-- Effect of one operation on the tracker, together with the names of the effects that contributed
to the skill (empty for operations that do not ask for effects). -/
def TrackerOp.exec (tr : StatusEffectTracker) : TrackerOp → Py (List String × StatusEffectTracker)
  | .expire t => .ok ([], tr.expire t)
  | .add t skill m targets => do return ([], ← tr.add t skill m targets)
  | .buffs t skill => do
    let r ← tr.compileBuffs t skill
    return (r.1.1.statusEffects, r.2)
  | .debuffs t skill target => do
    let r ← tr.compileDebuffs t skill target
    return (r.1.1.statusEffects, r.2)

/-- What both timeline builders do: expire at the time of the operation, then perform it. -/
def TrackerOp.use (tr : StatusEffectTracker) (op : TrackerOp) :
    Py (List String × StatusEffectTracker) :=
  TrackerOp.exec (tr.expire op.time) op

/-- Perform a history of operations; returns the contributing effects of each of them. -/
def runOps (tr : StatusEffectTracker) : List TrackerOp → Py (List (List String) × StatusEffectTracker)
  | [] => .ok ([], tr)
  | op :: ops => do
    let (out, tr) ← op.use tr
    let (outs, tr) ← runOps tr ops
    return (out :: outs, tr)

/-- Where an effect lives: among the buffs, or among the debuffs of a target. -/
inductive Slot
  | buffs
  | debuffs (target : String)
deriving DecidableEq

/-- The effects in a slot. -/
def Slot.effects (tr : StatusEffectTracker) : Slot → Effects
  | .buffs => tr.buffs
  | .debuffs target => tr.lookupDebuffs target

/-- Ask for the aggregate of the effects in a slot. -/
def Slot.compile (tr : StatusEffectTracker) (t : ℚ) (skill : SkillCore) :
    Slot → Py ((StatusEffects × String) × StatusEffectTracker)
  | .buffs => tr.compileBuffs t skill
  | .debuffs target => tr.compileDebuffs t skill target

/-- The operation is a use of `skill` at time `t` that asks for the effects in the slot. -/
def UsesSlot (slot : Slot) (skill : SkillCore) : TrackerOp → Prop
  | .buffs _ s => slot = .buffs ∧ s = skill
  | .debuffs _ s target => slot = .debuffs target ∧ s = skill
  | _ => False

/-- The operation neither re-applies, nor ends, nor clears the effect `name` in the slot. -/
def Leaves (slot : Slot) (name : String) : TrackerOp → Prop
  | .add _ skill m targets =>
    (∀ b, skill.getBuffSpec m = .ok (some b) →
      match slot with
      | .buffs => skill.name ≠ name ∧ b.clearAllStatusEffects = false ∧
          name ∉ b.expiresStatusEffects
      | .debuffs target => target = SimConsts.DEFAULT_TARGET → name ∉ b.expiresStatusEffects) ∧
    (∀ d, skill.getDebuffSpec m = .ok (some d) →
      match slot with
      | .buffs => name ∉ d.expiresStatusEffects
      | .debuffs target => target ∈ targets → skill.name ≠ name ∧ name ∉ d.expiresStatusEffects)
  | _ => True

/-- The operation is a use of the slot while the effect `name` (with specification `spec`, ending at
`endT`) is running, by a skill that the effect may affect. -/
def Eligible (slot : Slot) (name : String) (spec : StatusEffectSpec) (endT : WithTop ℚ)
    (op : TrackerOp) : Prop :=
  (op.time : WithTop ℚ) ≤ endT ∧ ∃ skill, UsesSlot slot skill op ∧ Allowed skill name spec

end Ama.Spec

namespace Ama.Spec

/-- Using `skill` with modifier `m` on `targets` grants the effect `spec` in the slot, and nothing it
does ends that effect again. -/
def Grants (slot : Slot) (skill : SkillCore) (m : SkillModifier) (targets : List String)
    (spec : StatusEffectSpec) : Prop :=
  targets.Nodup ∧ skill.name ∉ spec.expiresStatusEffects ∧
  match slot with
  | .buffs => skill.getBuffSpec m = .ok (some spec) ∧
      ∀ d, skill.getDebuffSpec m = .ok (some d) → skill.name ∉ d.expiresStatusEffects
  | .debuffs target => skill.getDebuffSpec m = .ok (some spec) ∧ target ∈ targets ∧
      ∀ b, skill.getBuffSpec m = .ok (some b) → skill.name ∉ b.expiresStatusEffects

/-- The time an effect ending at `endT` still lasts at time `t`. -/
def remaining (endT : WithTop ℚ) (t : ℚ) : WithTop ℚ :=
  match endT with
  | ⊤ => ⊤
  | (x : ℚ) => ((max (x - t) 0 : ℚ) : WithTop ℚ)

/-- The operation does not apply the effect `name` in the slot. -/
def DoesNotApply (slot : Slot) (name : String) : TrackerOp → Prop
  | .add _ skill m targets =>
    match slot with
    | .buffs => ∀ b, skill.getBuffSpec m = .ok (some b) → skill.name ≠ name
    | .debuffs target => ∀ d, skill.getDebuffSpec m = .ok (some d) → target ∈ targets →
        skill.name ≠ name
  | _ => True

end Ama.Spec
