import Verif.Model.ComputeDamage

/-!
# Model of `simulator/trackers/damage_tracker.py`

Simplifications: floating point numbers are exact rationals, the parallel arrays are one list of rows,
and the random numbers are an input: wherever the code calls `np.random.rand`, the model takes the
number that was drawn.
-/

namespace Ama

/-- The three random numbers used for one entry of one damage matrix (damage_tracker.py:86-103): for the
spread of the base damage, for the critical hit and for the direct hit. -/
structure Draw where
  spread : ℚ
  crit : ℚ
  dh : ℚ
deriving DecidableEq

/-- One row of the arrays, damage_tracker.py:8-18.
Simplification: the pair of status effects is kept as it is. -/
structure DamageRow where
  baseDamage : ℚ
  critRate : ℚ
  critBonus : ℚ
  dhRate : ℚ
  traitDamageMult : ℚ
  damageMult : ℚ
  time : ℚ
  potency : ℚ
  withCondition : Conds
  statusEffects : StatusEffects × StatusEffects
  damageClass : DamageClass
deriving DecidableEq

/-- damage_tracker.py:7-20: the rows that were filled so far (`it` is their number). -/
structure DamageTracker where
  rows : List DamageRow := []
  isFinalized : Bool := false
deriving DecidableEq

/-- damage_tracker.py:205-234: one entry of the report: low and high damage and the probability.
Simplification: the string naming the outcome is dropped; it is given by the position. -/
structure OutcomeRange where
  low : ℚ
  high : ℚ
  probability : ℚ
deriving DecidableEq

namespace DamageTracker

/-- damage_tracker.py:8-18: the number of rows of the arrays -/
def capacity : ℕ := 5000

/-- damage_tracker.py:25-54 `add_damage`; writing past the end of an array raises `IndexError` -/
def addDamage (dt : DamageTracker) (r : DamageRow) : Py DamageTracker :=
  if dt.isFinalized then .error .runtimeError
  else if capacity ≤ dt.rows.length then .error .indexError
  else .ok { dt with rows := dt.rows ++ [r] }

/-- damage_tracker.py:56-68 `finalize` -/
def finalize (dt : DamageTracker) : DamageTracker := { dt with isFinalized := true }

/-- A truth value used as a number. -/
def boolNum (b : Bool) : ℚ := if b then 1 else 0

/-- damage_tracker.py:72-112 `__get_damage` for one entry of the matrix: the damage, whether it is a
critical hit and whether it is a direct hit -/
def getDamage (baseDamage critBonus critRate dhRate traitDamageMult damageMult range : ℚ) (w : Draw) :
    ℚ × Bool × Bool :=
  let low := 1 - range / 2
  let total := npFloor (baseDamage * (low + range * w.spread))
  let crit := decide (critRate ≥ w.crit)
  let total := total + npFloor (total * (critBonus * boolNum crit))
  let dh := decide (dhRate ≥ w.dh)
  let total := total + npFloor (total * (GameConsts.DH_DAMAGE_MULT_BONUS * boolNum dh))
  let total := npFloor (total * traitDamageMult)
  (npFloor (total * damageMult), crit, dh)

/-- damage_tracker.py:124-198: one bound of one outcome of a row: no spread, rates zero or one -/
def bound (r : DamageRow) (initBase critRate dhRate : ℚ) (w : Draw) : ℚ :=
  (getDamage initBase r.critBonus critRate dhRate r.traitDamageMult r.damageMult 0 w).1

/-- damage_tracker.py:121-234: the four outcomes of one row.  `w k` is the draw of the `k`-th of the eight
calls of `__get_damage` for this row. -/
def rowRanges (r : DamageRow) (w : ℕ → Draw) : List OutcomeRange :=
  let low := npFloor (95 / 100 * r.baseDamage)
  let high := npFloor (105 / 100 * r.baseDamage)
  [⟨bound r low 0 0 (w 0), bound r high 0 0 (w 1), (1 - r.critRate) * (1 - r.dhRate)⟩,
   ⟨bound r low 1 0 (w 2), bound r high 1 0 (w 3), r.critRate * (1 - r.dhRate)⟩,
   ⟨bound r low 0 1 (w 4), bound r high 0 1 (w 5), (1 - r.critRate) * r.dhRate⟩,
   ⟨bound r low 1 1 (w 6), bound r high 1 1 (w 7), r.critRate * r.dhRate⟩]

/-- damage_tracker.py:114-234 `get_damage_ranges_and_probabilities`; `w i k` is the draw of the `k`-th call
of `__get_damage` for row `i` -/
def ranges (dt : DamageTracker) (w : ℕ → ℕ → Draw) : Py (List (List OutcomeRange)) :=
  if dt.isFinalized then .ok (dt.rows.mapIdx fun i r => rowRanges r (w i))
  else .error .runtimeError

/-- damage_tracker.py:236-250 `compute_damage`: for every row the damage and the statuses of every
sample.  `w i j` is the draw for row `i` and sample `j`. -/
def computeDamage (dt : DamageTracker) (numSamples : ℕ) (w : ℕ → ℕ → Draw) :
    Py (List (List (ℚ × Bool × Bool))) :=
  if dt.isFinalized then
    .ok (dt.rows.mapIdx fun i r => (List.range numSamples).map fun j =>
      getDamage r.baseDamage r.critBonus r.critRate r.dhRate r.traitDamageMult r.damageMult (1 / 10)
        (w i j))
  else .error .runtimeError

end DamageTracker

end Ama
