import Verif.Spec.Extending
import Verif.Spec.Shift
import Verif.Spec.Timeline

/-!
# Specification of playing a rotation at another time
-/

namespace Ama.Spec

/-- The call, for a rotation that is played `k` milliseconds later.  (Times are given in seconds.) -/
def BuilderOp.later (k : ℤ) : BuilderOp → BuilderOp
  | .add t name m job targets => .add (t + k / 1000) name m job targets
  | op => op

/-- The call gives no time but whole milliseconds. -/
def BuilderOp.Milli : BuilderOp → Prop
  | .add t _ _ _ _ => ∃ n : ℤ, 1000 * t = n
  | _ => True

/-- The call computes the timeline. -/
def BuilderOp.isTiming : BuilderOp → Bool
  | .timing _ => true
  | _ => false

/-- The press, `k` milliseconds later. -/
def laterPress (k : ℤ) (p : Press) : Press := { p with t := p.t + k }

/-- The window, `k` milliseconds later.  (Times are given in seconds.) -/
def laterWindow (k : ℤ) (w : RawWindow) : RawWindow :=
  { w with start := w.start + k / 1000, stop := w.stop + k / 1000 }

/-- The downtime, `k` milliseconds later. -/
def laterDowntime (k : ℤ) : RawDowntime → RawDowntime
  | .tuple ws => .tuple (ws.map (laterWindow k))
  | .dict d => .dict (d.map (fun kv => (kv.1, kv.2.map (laterWindow k))))

/-- `e'` is `e`, happening `k` milliseconds later (and possibly with another id and priority). -/
structure MovedLater (k : ℤ) (e e' : Event) : Prop where
  primary : e'.primary = e.primary + k
  secondary : e'.secondary = e.secondary.map (· + (k : ℚ))
  skill : e'.skill = e.skill
  modifier : e'.modifier = e.modifier
  buffs : e'.snapshotBuffs = e.snapshotBuffs
  debuffs : e'.snapshotDebuffs = e.snapshotDebuffs
  targets : e'.targets = e.targets

/-- The priority of `e'` is that of `e`, `k` milliseconds later: priorities count microseconds.  (They
are rounded towards zero, so this is not asked of fractions of microseconds before time 0.) -/
def RankedLater (k : ℤ) (e e' : Event) : Prop :=
  Micro e.primary ∨ 0 ≤ e.primary ∧ 0 ≤ e'.primary → e'.priority = e.priority + 1000 * k

/-- The builder with everything that happens, auto-attacks included, before the first damage is put at
time 0 and downtime is taken into account. -/
def beforeDowntime (fuel : ℕ) (rb : RotationBuilder) : Py RotationBuilder := do
  let rb ← afterPresses rb
  let last := if rb.ignoreTrailingDots then rb.events.getLastEventTime else none
  let rb ← rb.processAllDots last
  if rb.enableAutos then rb.addAutos fuel last else return rb

end Ama.Spec
