import Verif.Spec.HitDamage

/-!
# Specification vocabulary: the mean over all random numbers
-/

namespace Ama.Spec

/-- The numbers 0, 1/N, … (N-1)/N.  `np.random.rand` returns each of them equally often, with N = 2^53. -/
def unitGrid (N : ℕ) : List ℚ := (List.range N).map fun k : ℕ => (k : ℚ) / N

/-- All combinations of three such numbers, each once. -/
def allDraws (N : ℕ) : List Draw :=
  (unitGrid N).flatMap fun a => (unitGrid N).flatMap fun b => (unitGrid N).map fun c => ⟨a, b, c⟩

/-- `l` consists of the members of `all`, each equally often, in any order. -/
def EquallyOften {α : Type} (l all : List α) : Prop := ∃ m, 0 < m ∧ l.Perm (List.replicate m all).flatten

/-- The mean of a list of numbers. -/
def meanOf (l : List ℚ) : ℚ := l.sum / l.length

/-- What the mean of the samples can differ from the reported expected damage: the roundings, and that random
numbers are multiples of 1/N. -/
def meanAllowance (base bonus trait mult : ℚ) (N : ℕ) : ℚ :=
  hitLoss bonus trait mult + base * (1 + 2 * bonus) * trait * mult / N

end Ama.Spec
