import Verif.Model.RotationAnalysis

/-!
# Specification vocabulary: damage over time
-/

namespace Ama.Spec

/-- The entries whose snapshot time is known and satisfies a test. -/
def snapshotted (per : List PerInstanceDamage) (P : ℚ → Bool) : List PerInstanceDamage :=
  per.filter fun p => p.snapshotTime.any P

/-- Adding up expected damage with floating point numbers, from the left. -/
def floatTotal (per : List PerInstanceDamage) : ℚ :=
  per.foldl (fun s p => float64 (s + p.expectedDamage)) 0

/-- `T` is the latest snapshot time, or −1 if there is none after that. -/
def IsLatest (per : List PerInstanceDamage) (T : ℚ) : Prop :=
  (T = -1 ∨ ∃ p ∈ per, p.snapshotTime = some T) ∧ -1 ≤ T ∧
    ∀ p ∈ per, ∃ t, p.snapshotTime = some t ∧ t ≤ T

end Ama.Spec
