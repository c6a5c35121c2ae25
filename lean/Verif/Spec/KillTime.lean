import Verif.Model.KillTime
import Mathlib.Data.Nat.Digits.Defs

/-!
# Specification vocabulary: kill times
-/

namespace Ama.Spec

/-- `idx` lists the places of `ts` in an order in which the times do not decrease (what `np.argsort` may
return). -/
def IsArgsort (ts : List ℚ) (idx : List ℕ) : Prop :=
  idx.Perm (List.range ts.length) ∧ (idx.map fun i => ts[i]?).Pairwise
    fun a b => ∀ x y, a = some x → b = some y → x ≤ y

/-- The hits of one sample: time and damage of every row of the matrix. -/
def sampleHits (ts : List ℚ) (m : List (List ℚ)) (j : ℕ) : List (ℚ × ℚ) :=
  (ts.zip m).map fun p => (p.1, (p.2[j]?).getD 0)

/-- Total damage of a list of hits. -/
def damageOf (hits : List (ℚ × ℚ)) : ℚ := (hits.map (·.2)).sum

/-- Going through the hits in the given order, the one at time `T` is the first with which the accumulated
damage reaches `hp`. -/
def FirstCrossing (hp : ℚ) (hits : List (ℚ × ℚ)) (T : ℚ) : Prop :=
  ∃ before hit after, hits = before ++ hit :: after ∧ hit.1 = T ∧ hp ≤ damageOf (before ++ [hit]) ∧
    ∀ k, 0 < k → k ≤ before.length → damageOf (before.take k) < hp

/-- Going through the hits in the given order, the accumulated damage never reaches `hp`. -/
def NeverCrosses (hp : ℚ) (hits : List (ℚ × ℚ)) : Prop :=
  ∀ k, 0 < k → k ≤ hits.length → damageOf (hits.take k) < hp

/-- Damage of all hits up to a time, whatever their order. -/
def damageUpTo (hits : List (ℚ × ℚ)) (T : ℚ) : ℚ := damageOf (hits.filter fun h => decide (h.1 ≤ T))

/-- `T` is the earliest time of a hit such that the damage of all hits up to it reaches `hp`. -/
def KillsAt (hp : ℚ) (hits : List (ℚ × ℚ)) (T : ℚ) : Prop :=
  (∃ h ∈ hits, h.1 = T) ∧ hp ≤ damageUpTo hits T ∧ ∀ h ∈ hits, h.1 < T → damageUpTo hits h.1 < hp

/-- At no hit does the damage of all hits up to it reach `hp`. -/
def Survives (hp : ℚ) (hits : List (ℚ × ℚ)) : Prop := ∀ h ∈ hits, damageUpTo hits h.1 < hp

/-- The reported list: the kill times in the order of the samples, then a `None` for every sample without. -/
def packed (ks : List (Option ℚ)) : List (Option ℚ) :=
  ks.filter Option.isSome ++ ks.filter Option.isNone

end Ama.Spec

namespace Ama.Spec

/-- The number written with the given digits. -/
def numberOf (ds : List Char) : ℕ := Nat.ofDigits 10 (ds.reverse.map fun c => c.toNat - '0'.toNat)

/-- The condition is `pre`, a blank, the digits of the number `N`, and then nothing more or something that does
not begin with a digit. -/
def Announces (pre condition : String) (N : ℕ) : Prop :=
  ∃ ds rest, condition.toList = pre.toList ++ ' ' :: ds ++ rest ∧ ds ≠ [] ∧ (∀ c ∈ ds, c.isDigit) ∧
    (∀ c ∈ rest.head?, ¬ c.isDigit) ∧ numberOf ds = N

/-- The name contains the letters `LB`. -/
def NamesLb (name : String) : Prop := ∃ a b, name.toList = a ++ 'L' :: 'B' :: b

/-- The simulator that is made for a rotation. -/
def SimulatorOf (fuel n : ℕ) (rb : RotationBuilder) (c : RotationChoices) (sim : DamageSimulator) : Prop :=
  ∃ db rb' instances db', DamageBuilder.init rb.stats rb.lib = .ok db ∧ rb.getSkillTiming fuel = .ok rb' ∧
    db.getDamageInstances rb'.events = .ok (instances, db') ∧
    DamageSimulator.init rb'.stats instances n c.ranges c.samples = .ok sim

end Ama.Spec
