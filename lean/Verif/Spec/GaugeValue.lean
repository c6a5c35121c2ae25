import Verif.Spec.Trackers

/-!
# Specification vocabulary for the amount in a gauge (C100)
-/

namespace Ama.Spec

open JobResourceTracker

/-- One change of a gauge: when it happens, until when it counts, by how much (`⊥` empties the gauge), and whether it
renews the gauge's time limit. -/
structure GaugeChange where
  time : ℚ
  lasts : WithTop ℚ
  amount : WithBot ℤ
  renews : Bool
deriving DecidableEq

/-- The changes of the gauge `name` that a call makes: one for each entry of the skill for that gauge, and one that
empties it for each entry that clears all gauges. -/
def changesOfCall (name : String) : GaugeOp → List GaugeChange
  | .query _ _ => []
  | .add t skill m =>
    match skill.getJobResourceSpec m with
    | .error _ => []
    | .ok specs => specs.flatMap fun spec =>
      if spec.clearAllResourcesOnly then [⟨t, ⊤, ⊥, false⟩]
      else if spec.name = name then
        [⟨t, (t : WithTop ℚ) + spec.duration, spec.change, spec.refreshesDurationOfLastGained⟩]
      else []

/-- `cs` is `all` in order of time, with changes at the same time in the order in which they were made. -/
def InTimeOrder (all cs : List GaugeChange) : Prop :=
  cs.Pairwise (fun a b => a.time ≤ b.time) ∧
  ∀ t, cs.filter (fun c => decide (c.time = t)) = all.filter (fun c => decide (c.time = t))

/-- The changes that count at time `t`: those made by then that have not run out. -/
def counted (t : ℚ) (cs : List GaugeChange) : List GaugeChange :=
  cs.filter (fun c => decide (c.time ≤ t ∧ (t : WithTop ℚ) ≤ c.lasts))

/-- What a gauge holds after the given changes, the latest first: it starts empty, and holds neither less than nothing nor
more than `most`. -/
def holdsRev (most : ℤ) : List GaugeChange → ℤ
  | [] => 0
  | c :: earlier =>
    match c.amount with
    | ⊥ => 0
    | (a : ℤ) => max 0 (min (holdsRev most earlier + a) most)

/-- What a gauge holds after the given changes, the earliest first. -/
def holds (most : ℤ) (cs : List GaugeChange) : ℤ := holdsRev most cs.reverse

/-- The time from which the time limit of a gauge runs: that of the last change that renews it, or that of the first change
if none does. -/
def limitFrom (cs : List GaugeChange) : Option ℚ :=
  match (cs.filter (·.renews)).getLast? with
  | some c => some c.time
  | none => cs.head?.map (·.time)

/-- After the changes `before`, the time limit `limit` has run out by time `t`. -/
def RanOut (limit : WithTop ℚ) (before : List GaugeChange) (t : ℚ) : Prop :=
  ∃ r, limitFrom before = some r ∧ (r : WithTop ℚ) + limit < (t : WithTop ℚ)

/-- `life` is the part of the changes `cs` since the time limit last ran out between two of them. -/
def LastLife (limit : WithTop ℚ) (cs life : List GaugeChange) : Prop :=
  ∃ gone, cs = gone ++ life ∧
    (gone = [] ∨ ∃ c rest, life = c :: rest ∧ RanOut limit gone c.time) ∧
    ∀ c pre post, life = pre ++ c :: post → pre ≠ [] → ¬ RanOut limit (gone ++ pre) c.time

end Ama.Spec
