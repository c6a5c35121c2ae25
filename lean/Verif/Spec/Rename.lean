import Verif.Model.DamageSimulator

/-!
# Other names for the targets
-/

namespace Ama.Spec

/-- The event, with other names for the targets. -/
def renameEvent (f : String → String) (e : Event) : Event := { e with targets := e.targets.map f }

/-- The timeline, with other names for the targets. -/
def renameTimeline (f : String → String) (events : Events) : Events :=
  { events with q := events.q.map (renameEvent f) }

/-- The damage instance, with another name for the target. -/
def renameInstance (f : String → String) (x : DamageInstance) : DamageInstance :=
  { x with target := f x.target }

/-- No buff of the timeline ends a debuff of the timeline. -/
def BuffsEndNoDebuff (events : Events) : Prop :=
  ∀ e ∈ events.q, ∀ m s, e.skill.getBuffSpec m = .ok (some s) →
    ∀ e' ∈ events.q, e'.skill.name ∈ s.expiresStatusEffects → ∀ m' s', e'.skill.getDebuffSpec m' ≠ .ok (some s')

/-- The simulation, with other names for the targets. -/
def renameSimulation (f : String → String) (s : DamageSimulator) : DamageSimulator :=
  { s with instances := s.instances.map (renameInstance f), targets := s.targets.map f }

end Ama.Spec
