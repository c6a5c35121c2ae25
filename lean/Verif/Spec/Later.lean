import Verif.Spec.Damage

/-!
# Specification: adding to the end of a timeline

An event of a timeline is processed once, and once more for each of its targets if its snapshot and its
application are separate.  The queue orders by priority, then by the name of the skill.
-/

namespace Ama.Spec

/-- A place in the order of the queue: a priority and the name of a skill. -/
abbrev Place := ℤ ×ₗ String

/-- The places at which an event is processed: its own one, and if its application is separate one
for the application on each target, which the builder puts at the time of the application. -/
def places (e : Event) : List Place :=
  toLex (e.priority, e.skill.name) ::
    match e.secondary with
    | none => []
    | some t => e.targets.map fun _ =>
        toLex (Utils.transformTimeToPrio t + (Utils.transformTimeToPrio e.primary - e.priority), e.skill.name)

/-- No two things are processed at the same place. -/
def OneAtATime (q : List Event) : Prop := (q.flatMap places).Nodup

/-- The events in `later` come after everything that happens because of the events in `q`. -/
def AllAfter (q later : List Event) : Prop :=
  ∀ e ∈ q, ∀ p ∈ places e, ∀ e' ∈ later, p < toLex (e'.priority, e'.skill.name)

end Ama.Spec
