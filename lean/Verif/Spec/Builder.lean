import Verif.Model.RotationBuilder
import Verif.Spec.Events

/-!
# Specification vocabulary for the rotation builder
-/

namespace Ama.Spec

/-- A public call on a builder. -/
inductive BuilderOp
  | addNext (skillName : String) (modifier : Option SkillModifier) (jobClass : Option String)
      (numTimes : ℕ) (targets : Option String)
  | add (t : ℚ) (skillName : String) (modifier : Option SkillModifier) (jobClass : Option String)
      (targets : Option String)
  | setTrailing (b : Bool)
  | setAutos (b : Bool)
  | timing (fuel : ℕ)

/-- Perform one call. -/
def BuilderOp.run (rb : RotationBuilder) : BuilderOp → Py RotationBuilder
  | .addNext name m job n targets => rb.addNext name m job n targets
  | .add t name m job targets => rb.add t name m job targets
  | .setTrailing b => .ok (rb.setIgnoreTrailingDots b)
  | .setAutos b => .ok (rb.setEnableAutos b)
  | .timing fuel => rb.getSkillTiming fuel

/-- The builder results from a constructor call followed by public calls, none of which raised. -/
def Built (rb : RotationBuilder) : Prop :=
  ∃ stats lib snapDots autos trailing fightStart downtime target rb₀, ∃ ops : List BuilderOp,
    RotationBuilder.init stats lib snapDots autos trailing fightStart downtime target = .ok rb₀ ∧
    ops.foldlM BuilderOp.run rb₀ = .ok rb

/-- One call of `add`. -/
structure AddCall where
  t : ℚ
  skillName : String
  modifier : Option SkillModifier := none
  jobClass : Option String := none
  targets : Option String := none

/-- Perform the call. -/
def AddCall.run (rb : RotationBuilder) (c : AddCall) : Py RotationBuilder :=
  rb.add c.t c.skillName c.modifier c.jobClass c.targets

/-- What the user sees of a call of `get_skill_timing`: the timeline and the presses, or the
exception. -/
def observed (r : Py RotationBuilder) : Py (Events × List Press) :=
  r >>= fun rb => .ok (rb.events, rb.presses)

/-- No skill of the library takes effect before it is used: application delays are not negative,
under any conditions.  (Delays of follow-ups are natural numbers.) -/
def NonnegDelays (lib : SkillLibrary) : Prop :=
  ∀ name job skill, lib.getSkill name job = .ok skill → ∀ (m : SkillModifier) (ts : TimingSpec),
    skill.getTimingSpec m = .ok (some ts) → 0 ≤ ts.applicationDelay

/-- The time at which an event of a timeline is applied. -/
def appliedAt (e : Event) : ℚ :=
  match e.secondary with
  | some t => t
  | none => e.primary

/-- The event deals damage. -/
def Damaging (e : Event) : Prop := ∃ s, e.skill.getDamageSpec e.modifier = .ok (some s)

/-! ## The sequence -/

/-- One press of the sequence: when, under which conditions and effects, and with which timing. -/
structure SeqSlot where
  t : ℚ
  skill : Skill
  modifier : SkillModifier
  buffs : StatusEffects
  debuffs : StatusEffects
  timing : TimingSpec
  cast : ℚ
  recast : ℚ

/-- The press is a GCD. -/
def SeqSlot.Gcd (s : SeqSlot) : Prop := s.skill.isGCD = some true

instance (s : SeqSlot) : Decidable s.Gcd := inferInstanceAs (Decidable (_ = _))

/-- How long nothing else can be pressed: the animation lock, after the cast for GCDs. -/
def SeqSlot.busy (s : SeqSlot) : ℚ :=
  if s.Gcd then s.cast + s.timing.animationLock else s.timing.animationLock

/-- The press is one of the queued entry: same skill, at least the requested conditions, with the
timing of the variant in effect. -/
def SlotOf (stats : Stats) (p : SeqPress) (s : SeqSlot) : Prop :=
  s.skill = p.skill ∧ p.modifier.withCondition ⊆ s.modifier.withCondition ∧
  s.skill.getTimingSpec s.modifier = .ok (some s.timing) ∧
  RotationBuilder.getCastTime stats (some s.timing) s.modifier s.buffs = .ok s.cast ∧
  (s.Gcd → RotationBuilder.recastTime stats s.timing s.buffs s.debuffs = .ok s.recast)

/-- Every press happens at the earliest time at which the previous press is over and, for a GCD, the
recast of the last GCD is over. -/
def Earliest : ℚ → Option ℚ → List SeqSlot → Prop
  | _, _, [] => True
  | free, ready, s :: ss =>
    IsLeast {x | free ≤ x ∧ (s.Gcd → ∀ r, ready = some r → r ≤ x)} s.t ∧
    Earliest (s.t + s.busy) (if s.Gcd then some (s.t + s.recast) else ready) ss

/-- The entry reported for a press at time `t`: the own job is not shown, and of the conditions only
the requested ones are. -/
def reported (stats : Stats) (t : ℚ) (skill : Skill) (m : SkillModifier) (jobClass : String) : Press :=
  { t := t, name := skill.name, jobClass := if jobClass = stats.jobClass then "" else jobClass,
    conds := m.withCondition }

/-- The press, `δ` earlier. -/
def earlier (δ : ℚ) (p : Press) : Press := { p with t := p.t - δ }

/-! ## Downtime -/

/-- `t` lies in one of the windows, which are half-open and may be limited to one damage class. -/
def Covered (ws : List Window) (t : ℚ) (cls : DamageClass) : Prop :=
  ∃ w ∈ ws, w.start ≤ t ∧ t < w.stop ∧ (w.damageClass = none ∨ w.damageClass = some cls)

/-- The windows of a target. -/
def downtimeOf (rb : RotationBuilder) (target : String) : List Window :=
  match rb.downtime with
  | .tuple ws => ws
  | .dict d => (Dict.get? d target).getD []
  | .known targets ws => if target ∈ targets then ws else []

/-- The hit of the event on the target is not affected by downtime. -/
def Unaffected (rb : RotationBuilder) (e : Event) (target : String) : Prop :=
  e.skill.getDamageSpec e.modifier = .ok none ∨
  ∃ s, e.skill.getDamageSpec e.modifier = .ok (some s) ∧
    ¬ Covered (downtimeOf rb target) (appliedAt e) s.damageClass ∧
    ¬ Covered (downtimeOf rb target) e.primary s.damageClass

/-- `e'` is `e` moved `δ` earlier; its priority is `k` smaller. -/
structure MovedEarlier (δ : ℚ) (k : ℤ) (e e' : Event) : Prop where
  priority : e'.priority = e.priority - k
  primary : e'.primary = e.primary - δ
  secondary : e'.secondary = e.secondary.map (· - δ)
  skill : e'.skill = e.skill
  modifier : e'.modifier = e.modifier
  buffs : e'.snapshotBuffs = e.snapshotBuffs
  debuffs : e'.snapshotDebuffs = e.snapshotDebuffs
  targets : e'.targets = e.targets

/-- `e'` is `e` with the targets `ts` (and possibly another id). -/
structure WithTargets (ts : List String) (e e' : Event) : Prop where
  priority : e'.priority = e.priority
  primary : e'.primary = e.primary
  secondary : e'.secondary = e.secondary
  skill : e'.skill = e.skill
  modifier : e'.modifier = e.modifier
  buffs : e'.snapshotBuffs = e.snapshotBuffs
  debuffs : e'.snapshotDebuffs = e.snapshotDebuffs
  targets : e'.targets = ts

end Ama.Spec
