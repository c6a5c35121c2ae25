import Verif.Model.DamageBuilder

/-!
# The same timeline at another time
-/

namespace Ama.Spec

/-- The event, `δ` later. -/
def laterEvent (δ : ℚ) (e : Event) : Event :=
  { e with
    priority := e.priority + Utils.transformTimeToPrio δ
    primary := e.primary + δ
    secondary := e.secondary.map (· + δ) }

/-- The timeline, `δ` later. -/
def laterTimeline (δ : ℚ) (events : Events) : Events :=
  { events with q := events.q.map (laterEvent δ) }

/-- The damage instance, `δ` later. -/
def laterInstance (δ : ℚ) (x : DamageInstance) : DamageInstance := { x with time := x.time + δ }

/-- The time is a whole number of microseconds. -/
def Micro (t : ℚ) : Prop := ∃ n : ℤ, 1000 * t = n

/-- None of the gauges of the job loses its content when it has not been refilled for some time. -/
def Lasting (lib : SkillLibrary) (job : String) : Prop :=
  ∀ settings, lib.getAllResourceSettings job = .ok settings →
    ∀ kv ∈ settings, kv.2.expiryFromLastGain = ⊤

end Ama.Spec
