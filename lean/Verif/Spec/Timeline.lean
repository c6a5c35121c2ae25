import Verif.Spec.Builder
import Mathlib.Order.Bounds.Basic

/-!
# Specification of the last steps of `get_skill_timing`
-/

namespace Ama.Spec

/-- The builder after the presses have been processed, before dots and auto-attacks: its timeline
holds the events that are neither. -/
def afterPresses (rb : RotationBuilder) : Py RotationBuilder := do
  let rb ← { rb.processDowntimeWindows with events := {}, presses := [] }.processQSequence
  rb.processQTimed

/-- `l'` consists of the elements of `l`, in any order, each changed as described by `R`. -/
def Changed {α β : Type} (R : α → β → Prop) (l : List α) (l' : List β) : Prop :=
  ∃ m, List.Forall₂ R l m ∧ m.Perm l'

/-- The times at which damage is applied. -/
def damageTimes (evs : Events) : Set ℚ := {x | ∃ e ∈ evs.q, Damaging e ∧ appliedAt e = x}

/-- The positions of the events in the order of processing. -/
def Event.rank (e : Event) : ℤ × String := (e.priority, e.skill.name)

open Classical in
/-- The targets of the event that are not affected by downtime. -/
noncomputable def spared (rb : RotationBuilder) (e : Event) : List String :=
  e.targets.filter (fun target => decide (Unaffected rb e target))

end Ama.Spec
