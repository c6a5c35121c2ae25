import Verif.Py.Basic

/-!
# Specification vocabulary for conditions
-/

namespace Ama.Spec

/-- A condition name as users see it: no comma inside, no blank at either end. -/
def CleanName (c : String) : Prop :=
  ',' ∉ c.toList ∧ (∀ x, c.toList.head? = some x → isPySpace x = false) ∧
  (∀ x, c.toList.getLast? = some x → isPySpace x = false)

/-- `W` lists the conditions `l` in some order. -/
def Lists (l : List String) (W : Finset String) : Prop := l.Nodup ∧ ∀ c, c ∈ l ↔ c ∈ W

/-- Among `keys`, `k` is a best match for the active conditions `W`: all its conditions are active
and no other such key has more conditions. -/
def BestMatch (keys : List (Finset String)) (W k : Finset String) : Prop :=
  k ∈ keys ∧ k ⊆ W ∧ ∀ k' ∈ keys, k' ⊆ W → k'.card ≤ k.card

end Ama.Spec
