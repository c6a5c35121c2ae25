import Verif.Model.DamageBuilder
import Verif.Spec.Timeline
import Verif.Spec.Events
import Verif.Spec.Dots
import Verif.Spec.StatusEffects

/-!
# Specification of the damage builder
-/

namespace Ama.Spec

/-- A timeline as the damage builder gets it: the result of a rotation, or of any sequence of
operations on an empty queue. -/
def Timeline (events : Events) : Prop :=
  (∃ fuel rb' rb, RotationBuilder.getSkillTiming fuel rb = .ok rb' ∧ rb'.events = events) ∨
  ∃ ops out, runQueue {} ops = .ok (out, events)

/-! ## Hits -/

/-- One hit of an event: the event, one of its targets, and the position of that target. -/
structure Hit where
  event : Event
  target : String
  index : ℕ

/-- The hits of a timeline: one per event and target. -/
def hitsOf (q : List Event) : List Hit :=
  q.flatMap (fun e => e.targets.zipIdx.map (fun ti => { event := e, target := ti.1, index := ti.2 }))

/-- When a hit lands: 135 ms between the targets of an event with several targets. -/
def Hit.time (h : Hit) : ℚ :=
  if h.event.targets.length > 1 then appliedAt h.event + 135 * h.index else appliedAt h.event

/-- The skill deals damage under some conditions. -/
def Harms (skill : SkillCore) : Prop := ∃ m d, skill.getDamageSpec m = .ok (some d)

/-- No two hits that can deal damage and whose skills have the same name land at the same time. -/
def HitsApart (q : List Event) : Prop :=
  (hitsOf q).Pairwise (fun h h' => Harms h.event.skill.toSkillCore → Harms h'.event.skill.toSkillCore →
    h.time = h'.time → h.event.skill.name ≠ h'.event.skill.name)

/-- `m'` is `m` with possibly more conditions. -/
def Widens (m m' : SkillModifier) : Prop :=
  m' = { m with withCondition := m'.withCondition } ∧ m.withCondition ⊆ m'.withCondition

/-- `x` is an instance of the hit `h`. -/
def Hit.Yields (h : Hit) (x : DamageInstance) : Prop :=
  x.time = h.time ∧ x.skill = h.event.skill ∧ x.eventId = h.event.eventId ∧ x.target = h.target ∧
  Widens h.event.modifier x.modifier ∧
  (h.event.targets.length > 1 →
    "Target " ++ toString (h.index + 1) ∈ x.modifier.withCondition)

/-- The instance deals damage: the variant of its skill that is in effect has damage. -/
def deals (x : DamageInstance) : Bool :=
  match x.skill.getDamageSpec x.modifier with
  | .ok (some _) => true
  | _ => false

/-! ## Executions -/

/-- Some iterations of the loop: from which state, which events were processed in which state (after
having been taken from the queue), to which state. -/
inductive Reaches : DamageState → List (DamageState × Event) → DamageState → Prop
  | refl (s : DamageState) : Reaches s [] s
  | step (s s' s'' : DamageState) (e : Event) (evs : Events) (tr : List (DamageState × Event)) :
      s.events.getNext = .ok (e, evs) →
      DamageBuilder.processEvent { s with events := evs } e = .ok s' →
      Reaches s' tr s'' → Reaches s (({ s with events := evs }, e) :: tr) s''

/-- The builder processes the whole timeline. -/
def Processes (db : DamageBuilder) (events : Events) (tr : List (DamageState × Event))
    (s : DamageState) : Prop :=
  Reaches { db := db, events := events } tr s ∧ s.events.q = []

/-! ## Snapshots -/

/-- `b` are the buffs in effect when the event is processed in state `s`. -/
def BuffsAt (s : DamageState) (e : Event) (b : StatusEffects) : Prop :=
  ∃ c se, (s.db.se.expire e.primary).compileBuffs e.primary e.skill.toSkillCore = .ok ((b, c), se)

/-- `d` are the debuffs in effect on the target when the event is processed in state `s`. -/
def DebuffsAt (s : DamageState) (e : Event) (target : String) (d : StatusEffects) : Prop :=
  ∃ c se, (s.db.se.expire e.primary).compileDebuffs e.primary e.skill.toSkillCore target =
    .ok ((d, c), se)

/-- The second part of an event that was split: its application on one target, with the effects that
were not snapshotted still to be determined. -/
def Hit.AppliedAs (h : Hit) (e : Event) : Prop :=
  e.primary = h.time ∧ e.secondary = none ∧ e.skill = h.event.skill ∧ e.eventId = h.event.eventId ∧
  e.targets = [h.target] ∧
  (h.event.snapshotBuffs = .flag false → e.snapshotBuffs = .flag false) ∧
  (h.event.snapshotDebuffs = .flag false → e.snapshotDebuffs = .flag false)

/-- When the effects of a hit are determined, given its snapshot flag, in an execution: `At s e` says
that they are those in effect when `e` is processed in state `s`. -/
def Hit.TakenAt (h : Hit) (tr : List (DamageState × Event)) (status : SnapStatus)
    (At : DamageState → Event → StatusEffects → Prop) (x : StatusEffects) : Prop :=
  match status with
  | .done b => x = b
  | .flag true => ∃ s, (s, h.event) ∈ tr ∧ At s h.event x
  | .flag false =>
    if h.event.secondary = none then ∃ s, (s, h.event) ∈ tr ∧ At s h.event x
    else ∃ s e, (s, e) ∈ tr ∧ h.AppliedAs e ∧ At s e x

/-- The buffs of an instance: those of the event if it already carries them, else those in effect when
the event is processed (its snapshot, if that is separate), unless the event has a separate snapshot
but does not snapshot buffs: then those in effect at its application. -/
def Hit.Buffs (h : Hit) (tr : List (DamageState × Event)) (x : DamageInstance) : Prop :=
  h.TakenAt tr h.event.snapshotBuffs BuffsAt x.buffs

/-- Likewise for the debuffs of the target of the instance. -/
def Hit.Debuffs (h : Hit) (tr : List (DamageState × Event)) (x : DamageInstance) : Prop :=
  h.TakenAt tr h.event.snapshotDebuffs (fun s e => DebuffsAt s e h.target) x.debuffs

/-! ## Order -/

/-- The event is a regular one: it has at most one target if its snapshot is separate, it is not
applied before its snapshot, its times are whole milliseconds, and its priority is its time (in µs) up
to less than half a millisecond. -/
structure Regular (e : Event) : Prop where
  targets : e.secondary ≠ none → e.targets.length ≤ 1
  primary : Whole e.primary
  secondary : ∀ t, e.secondary = some t → Whole t ∧ e.primary ≤ t
  priority : |(e.priority : ℚ) - 1000 * e.primary| < 500

/-- How many times an event is taken from the queue: once, and once more for each target if its
snapshot is separate. -/
def rounds (e : Event) : ℕ :=
  match e.secondary with
  | none => 1
  | some _ => 1 + e.targets.length

/-! ## Absence of exceptions -/

/-- The effect forces or forbids critical or direct hits. -/
def Forces (s : StatusEffectSpec) : Prop := s.guaranteedCrit ≠ .default ∨ s.guaranteedDh ≠ .default

/-- At most one effect at a time decides about critical and direct hits: if two effects that the skills in
`P` give with `get` force or forbid critical or direct hits, and both may affect the same skill, then they
have the same name (so that the one replaces the other). -/
def OneForces (get : SkillCore → SkillModifier → Py (Option StatusEffectSpec)) (P : SkillCore → Prop) :
    Prop :=
  ∀ a b m m' s s' k, P a → P b → get a m = .ok (some s) → get b m' = .ok (some s') → Forces s → Forces s' →
    Allowed k a.name s → Allowed k b.name s' → a.name = b.name

/-- The effects of the skills in `P` do not contradict each other. -/
structure Agree (P : SkillCore → Prop) : Prop where
  buffs : OneForces SkillCore.getBuffSpec P
  debuffs : OneForces SkillCore.getDebuffSpec P

/-- All variants of the skill can be looked up, and it only changes gauges that are configured, under all
conditions that include those of `m₀`. -/
structure Harmless (gauges : List String) (m₀ : SkillModifier) (skill : SkillCore) : Prop where
  damage : ∀ m, m₀.withCondition ⊆ m.withCondition → ∃ r, skill.getDamageSpec m = .ok r
  buff : ∀ m, m₀.withCondition ⊆ m.withCondition → ∃ r, skill.getBuffSpec m = .ok r
  debuff : ∀ m, m₀.withCondition ⊆ m.withCondition → ∃ r, skill.getDebuffSpec m = .ok r
  gauge : ∀ m, m₀.withCondition ⊆ m.withCondition → ∃ l, skill.getJobResourceSpec m = .ok l ∧
    ∀ s ∈ l, s.clearAllResourcesOnly = true ∨ s.name ∈ gauges
  combo : ∀ m, m₀.withCondition ⊆ m.withCondition → ∃ l, skill.getComboSpec m = .ok l

end Ama.Spec
