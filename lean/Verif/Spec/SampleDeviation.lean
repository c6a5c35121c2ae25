import Mathlib.Analysis.Real.Sqrt
import Verif.Spec.SampleMean

/-!
# Specification vocabulary: the standard deviation over all random numbers
-/

namespace Ama.Spec

/-- The variance of a list of numbers, each as likely as the others. -/
def sampleVariance (l : List ℚ) : ℚ := meanOf (l.map fun x => x ^ 2) - meanOf l ^ 2

/-- The highest damage a hit can do, without rounding: a critical direct hit with the highest spread. -/
def topDamage (base bonus trait mult : ℚ) : ℚ := 105 / 100 * base * hitMultiplier bonus trait mult true true

/-- What the standard deviation of the samples can differ from the reported one: the roundings, and that random
numbers are multiples of 1/N. -/
noncomputable def deviationAllowance (base bonus trait mult : ℚ) (N : ℕ) : ℝ :=
  hitLoss bonus trait mult + topDamage base bonus trait mult * √(3 / N)

/-- All pairs of members of a list. -/
def allPairs {α : Type} (l : List α) : List (α × α) := l.flatMap fun a => l.map fun b => (a, b)

/-- In `n` samples of `k` hits, the random numbers of each hit are equally often each combination of multiples of
1/N, and so are those of any two hits together: the hits are independent. -/
def Independent (n k N : ℕ) (ws : ℕ → ℕ → Draw) : Prop :=
  (∀ i < k, EquallyOften ((List.range n).map (ws i)) (allDraws N)) ∧
  ∀ i < k, ∀ i' < k, i ≠ i' →
    EquallyOften ((List.range n).map fun j => (ws i j, ws i' j)) (allPairs (allDraws N))

end Ama.Spec
