import Verif.Spec.Timeline

/-!
# Specification of adding skills to a rotation
-/

namespace Ama.Spec

/-- The two events are the same, except for their ids. -/
def SameEvent (e e' : Event) : Prop := WithTargets e.targets e e'

/-- The number of skills that a call adds. -/
def BuilderOp.count : BuilderOp → ℕ
  | .addNext _ _ _ n _ => n
  | .add _ _ _ _ _ => 1
  | _ => 0

/-- The call does not add a timed skill before, or at the same time as, one that `rb` has.  The times
of `rb` are asked to differ, since the order of timed skills with equal times is not determined. -/
def BuilderOp.After (rb : RotationBuilder) : BuilderOp → Prop
  | .add t _ _ _ _ => (rb.qTimed.map (·.t)).Nodup ∧ ∀ p ∈ rb.qTimed, p.t < pyInt (1000 * t)
  | _ => True

/-- The call adds a timed skill. -/
def BuilderOp.isTimed : BuilderOp → Bool
  | .add _ _ _ _ _ => true
  | _ => false

/-- The call adds skills to the sequence. -/
def BuilderOp.isNext : BuilderOp → Bool
  | .addNext _ _ _ _ _ => true
  | _ => false

end Ama.Spec
