import Verif.Model.Utils

/-!
# Specification vocabulary for conditional variants

A table of variants as written by a user: condition strings with values.
-/

namespace Ama.Spec

open Utils

/-- `v` is declared under a condition all of whose parts are active in `W`, and no variant of the
table whose parts are all active has more parts. -/
def MostSpecific {α : Type} (raw : List (String × α)) (W : Finset String) (v : α) : Prop :=
  ∃ k, (k, v) ∈ raw ∧ canonicalizeCondition k ⊆ W ∧
    ∀ kv ∈ raw, canonicalizeCondition kv.1 ⊆ W →
      (canonicalizeCondition kv.1).card ≤ (canonicalizeCondition k).card

/-- No variant is declared under a blank (but non-empty) condition string such as `" "`. -/
def NoBlankKey {α : Type} (raw : List (String × α)) : Prop :=
  ∀ kv ∈ raw, canonicalizeCondition kv.1 ≠ {""}

/-- The variants are declared under pairwise different sets of conditions. -/
def DistinctVariants {α : Type} (raw : List (String × α)) : Prop :=
  (raw.map (fun kv => canonicalizeCondition kv.1)).Nodup

/-- The condition marking the `n`-th target hit by an area attack. -/
def targetCond (n : ℕ) : String := "Target " ++ toString n

end Ama.Spec
