import Verif.Model.Events
import Mathlib.Order.Bounds.Basic

/-!
# Specification of the event queue
-/

namespace Ama.Spec

/-- An operation on the event queue. -/
inductive QueueOp
  | add (a : NewEvent)
  | next

/-- Perform the operations; returns the events handed out and the final queue. -/
def runQueue (evs : Events) : List QueueOp → Py (List Event × Events)
  | [] => .ok ([], evs)
  | .add a :: ops => do runQueue (← evs.add a) ops
  | .next :: ops => do
    let (e, evs) ← evs.getNext
    let (out, evs) ← runQueue evs ops
    return (e :: out, evs)

/-- Take events out until the queue is empty; `n` bounds the number of iterations. -/
def drain : ℕ → Events → Py (List Event)
  | 0, evs => if evs.isEmpty then .ok [] else .error .runtimeError
  | n + 1, evs =>
    if evs.isEmpty then .ok []
    else do
      let (e, evs) ← evs.getNext
      return e :: (← drain n evs)

/-- The additions among the operations. -/
def additions (ops : List QueueOp) : List NewEvent :=
  ops.filterMap (fun op => match op with
    | .add a => some a
    | .next => none)

/-- The id an added event gets if `n` ids have been handed out. -/
def NewEvent.idWith (a : NewEvent) (n : ℕ) : ℕ :=
  match a.eventId with
  | some i => i
  | none => n

/-- What an added event becomes.  An event whose snapshot and application coincide is not split. -/
def NewEvent.Becomes (a : NewEvent) (e : Event) : Prop :=
  e.priority = a.priority ∧ e.primary = a.primary ∧ e.skill = a.skill ∧ e.modifier = a.modifier ∧
  e.targets = a.targets ∧ e.jobResourcesAdded = a.jobResourcesAdded ∧
  e.jobConditionalProcessed = a.jobConditionalProcessed ∧
  e.comboConditionalProcessed = a.comboConditionalProcessed ∧
  if a.secondary = some a.primary then
    e.secondary = none ∧ e.snapshotBuffs = .flag true ∧ e.snapshotDebuffs = .flag true
  else e.secondary = a.secondary ∧ e.snapshotBuffs = a.snapshotBuffs ∧
    e.snapshotDebuffs = a.snapshotDebuffs

/-- `es` are the events of the additions `as`, with the ids `n, n+1, ...` given in order to those
without an explicit id. -/
inductive EventsOf : ℕ → List NewEvent → List Event → Prop
  | nil (n : ℕ) : EventsOf n [] []
  | given (n i : ℕ) (a : NewEvent) (e : Event) (as : List NewEvent) (es : List Event) :
      a.eventId = some i → e.eventId = i → NewEvent.Becomes a e → EventsOf n as es →
      EventsOf n (a :: as) (e :: es)
  | fresh (n : ℕ) (a : NewEvent) (e : Event) (as : List NewEvent) (es : List Event) :
      a.eventId = none → e.eventId = n → NewEvent.Becomes a e → EventsOf (n + 1) as es →
      EventsOf n (a :: as) (e :: es)

/-- Order of handing out: by priority, then by name. -/
def Before (a b : Event) : Prop :=
  a.priority < b.priority ∨ (a.priority = b.priority ∧ a.skill.name ≤ b.skill.name)

/-- The time at which an added event is applied. -/
def NewEvent.appliedAt (a : NewEvent) : ℚ :=
  match a.secondary with
  | some t => t
  | none => a.primary

/-- The added event deals damage. -/
def NewEvent.Damaging (a : NewEvent) : Prop :=
  ∃ s, a.skill.getDamageSpec a.modifier = .ok (some s)

end Ama.Spec
