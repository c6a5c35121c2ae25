import Verif.Model.Skill
import Verif.Py.Heapq
import Mathlib.Data.Prod.Lex
import Mathlib.Data.String.Basic

/-!
# Model of `simulator/timeline_builders/snapshot_and_application_events.py`
-/

namespace Ama

/-- An entry of the list `snapshot_status`: a boolean ("snapshot at the primary time?") until it is
replaced by the compiled status effects (damage_builder.py:90-94, 132-136). -/
inductive SnapStatus
  | flag (b : Bool)
  | done (s : StatusEffects)
deriving DecidableEq

/-- snapshot_and_application_events.py:23-38 `Event`; the fields of `EventTimes` (9) are inlined. -/
structure Event where
  priority : ℤ
  primary : ℚ
  secondary : Option ℚ
  skill : Skill
  modifier : SkillModifier
  snapshotBuffs : SnapStatus
  snapshotDebuffs : SnapStatus
  targets : List String
  eventId : ℕ
  jobResourcesAdded : Bool
  jobConditionalProcessed : Bool
  comboConditionalProcessed : Bool
deriving DecidableEq

/-- The sort key used by `Event.__lt__`, snapshot_and_application_events.py:40-41 -/
def Event.key (e : Event) : ℤ ×ₗ String := toLex (e.priority, e.skill.name)

/-- snapshot_and_application_events.py:40-41 `Event.__lt__` (strings are compared by code points both
in Python and in Lean); it never raises. -/
def Event.pyLt (a b : Event) : Py Bool :=
  .ok (decide (a.priority < b.priority ∨ (a.priority = b.priority ∧ a.skill.name < b.skill.name)))

/-- The arguments of `add`, snapshot_and_application_events.py:79-92 -/
structure NewEvent where
  priority : ℤ
  primary : ℚ
  secondary : Option ℚ
  skill : Skill
  modifier : SkillModifier
  snapshotBuffs : SnapStatus
  snapshotDebuffs : SnapStatus
  eventId : Option ℕ := none
  jobResourcesAdded : Bool := false
  jobConditionalProcessed : Bool := false
  comboConditionalProcessed : Bool := false
  targets : List String := [SimConsts.DEFAULT_TARGET]
deriving DecidableEq

/-- snapshot_and_application_events.py:43-46 -/
structure Events where
  q : List Event := []
  eventId : ℕ := 0
deriving DecidableEq

namespace Events

/-- The event built at snapshot_and_application_events.py:93-116 -/
def mkEvent (a : NewEvent) (eventId : ℕ) : Event :=
  { priority := a.priority
    primary := a.primary
    secondary := if some a.primary = a.secondary then none else a.secondary
    skill := a.skill
    modifier := a.modifier
    snapshotBuffs := if some a.primary = a.secondary then .flag true else a.snapshotBuffs
    snapshotDebuffs := if some a.primary = a.secondary then .flag true else a.snapshotDebuffs
    targets := a.targets
    eventId := eventId
    jobResourcesAdded := a.jobResourcesAdded
    jobConditionalProcessed := a.jobConditionalProcessed
    comboConditionalProcessed := a.comboConditionalProcessed }

/-- snapshot_and_application_events.py:79-116 `add` -/
def add (evs : Events) (a : NewEvent) : Py Events := do
  let eventId := a.eventId.getD evs.eventId
  let counter := if a.eventId.isNone then evs.eventId + 1 else evs.eventId
  return { q := ← Heapq.heappush Event.pyLt evs.q (mkEvent a eventId), eventId := counter }

/-- The time at which the event is applied, snapshot_and_application_events.py:123-127, 138-142 -/
def applicationTime (e : Event) : ℚ := e.secondary.getD e.primary

/-- One iteration of snapshot_and_application_events.py:120-132 -/
def firstDamageStep (first : Option ℚ) (e : Event) : Py (Option ℚ) := do
  match ← e.skill.getDamageSpec e.modifier with
  | none => return first
  | some _ =>
    match first with
    | none => return some (applicationTime e)
    | some f => return some (min (applicationTime e) f)

/-- snapshot_and_application_events.py:118-133 `get_first_damage_time` -/
def getFirstDamageTime (evs : Events) : Py (Option ℚ) := evs.q.foldlM firstDamageStep none

/-- One iteration of snapshot_and_application_events.py:137-147 -/
def lastEventStep (last : Option ℚ) (e : Event) : Option ℚ :=
  match last with
  | none => some (applicationTime e)
  | some l => some (max (applicationTime e) l)

/-- snapshot_and_application_events.py:135-148 `get_last_event_time` -/
def getLastEventTime (evs : Events) : Option ℚ := evs.q.foldl lastEventStep none

/-- snapshot_and_application_events.py:150-152 `clear` -/
def clear (_evs : Events) : Events := {}

/-- snapshot_and_application_events.py:154-155 `is_empty` -/
def isEmpty (evs : Events) : Bool := evs.q.length = 0

/-- snapshot_and_application_events.py:157-158 `get_next`: the event and the remaining queue -/
def getNext (evs : Events) : Py (Event × Events) := do
  let (e, q) ← Heapq.heappop Event.pyLt evs.q
  return (e, { evs with q := q })

/-- snapshot_and_application_events.py:160-163 `get_q`: a copy sorted with `Event.__lt__` (Python's
sort is stable). -/
def getQ (evs : Events) : List Event := sortBy Event.key evs.q

end Events

end Ama
