import Verif.Spec.Builder
import Mathlib.Order.Bounds.Basic

/-!
# Specification of damage over time
-/

namespace Ama.Spec

/-- The number is a whole number of milliseconds. -/
def Whole (x : ℚ) : Prop := ∃ z : ℤ, x = z

/-- The first tick of an application at `start`: immediately, or at the first server tick (the server
ticks every 3 s, at `s` seconds among others) at or after it. -/
def FirstTick (snap : Option ℚ) (start first : ℚ) : Prop :=
  match snap with
  | none => first = start
  | some s => IsLeast {x | start ≤ x ∧ ∃ k : ℤ, x = 1000 * s + 3000 * k} first

/-- A tick at time `t` is not cut off. -/
def NotCut (last : Option ℚ) (t : ℤ) : Prop := ∀ l, last = some l → l ≠ 0 → (t : ℚ) ≤ l

/-- `t` is a tick of the application `a` if `next` is the following application. -/
def IsTick (snap last : Option ℚ) (duration : ℤ) (a : DotApp) (next : Option DotApp) (t : ℤ) : Prop :=
  (∃ first, FirstTick snap a.application first ∧ ∃ j : ℕ, (t : ℚ) = first + 3000 * j) ∧
  (t : ℚ) < a.application + duration ∧ (∀ b, next = some b → (t : ℚ) < b.application) ∧
  NotCut last t

/-- The lists of tick times of applications that are given in order of time. -/
def TickTimes (snap last : Option ℚ) (duration : ℤ) : List DotApp → List (List ℤ) → Prop
  | [], [] => True
  | a :: as, ts :: tss =>
    ts.Pairwise (· < ·) ∧ (∀ t, t ∈ ts ↔ IsTick snap last duration a as.head? t) ∧
      TickTimes snap last duration as tss
  | _, _ => False

/-- `e` is the tick at time `t` of the application `a` of the dot `f` on the target. -/
structure TickEvent (target : String) (f : FollowUp) (a : DotApp) (t : ℤ) (e : Event) : Prop where
  snapshot : e.primary = a.snapshot
  applied : appliedAt e = t
  skill : e.skill = f.skill.toSkill
  modifier : e.modifier = {}
  targets : e.targets = [target]
  buffs : a.snapshot ≠ t → e.snapshotBuffs = .flag f.snapshotBuffsWithParent
  debuffs : a.snapshot ≠ t → e.snapshotDebuffs = .flag f.snapshotDebuffsWithParent

/-- `evs` are the ticks of all applications of the dot `f` on the target. -/
def DotEvents (snap last : Option ℚ) (target : String) (f : FollowUp) (apps : List DotApp)
    (evs : List Event) : Prop :=
  ∃ (duration : ℤ) (sorted : List DotApp) (tss : List (List ℤ)), f.dotDuration = some duration ∧
    sorted.Perm apps ∧ sorted.Pairwise (fun a b => a.application ≤ b.application) ∧
    TickTimes snap last duration sorted tss ∧
    List.Forall₂ (fun (x : DotApp × ℤ) e => TickEvent target f x.1 x.2 e)
      ((List.zipWith (fun a (ts : List ℤ) => ts.map (fun t => (a, t))) sorted tss).flatten) evs

/-- The recorded applications, as triples of target, dot and applications. -/
def recorded (rb : RotationBuilder) : List (String × FollowUp × List DotApp) :=
  rb.qDot.flatMap (fun td => td.2.map (fun fa => (td.1, fa.1, fa.2)))

/-- The applications of a dot recorded for a target. -/
def appsOf (d : Dots) (target : String) (f : FollowUp) : List DotApp :=
  match Dict.get? d target with
  | none => []
  | some per =>
    match Dict.get? per f with
    | none => []
    | some apps => apps

/-- Ticks are not aligned, or everything happens at whole milliseconds. -/
def WholeTicks (rb : RotationBuilder) : Prop :=
  ∀ s, rb.snapDots = some s → Whole (1000 * s) ∧
    ∀ x ∈ recorded rb, ∀ a ∈ x.2.2, Whole a.application

/-! ## One use of a skill -/

/-- The event of a use that snapshots at `snapshot` and is applied at `application`. -/
structure UseEvent (skill : Skill) (m : SkillModifier) (targets : List String)
    (snapshot application : ℚ) (e : Event) : Prop where
  priority : e.priority = Utils.transformTimeToPrio snapshot
  snapshot : e.primary = snapshot
  applied : appliedAt e = application
  skill : e.skill = skill
  modifier : e.modifier = m
  targets : e.targets = targets
  buffs : e.snapshotBuffs = .flag true
  debuffs : e.snapshotDebuffs = .flag true

/-- The event of a follow-up that is not a dot: applied a fixed delay after its parent; it snapshots
with the parent if it takes buffs or debuffs from there, and when it is applied otherwise.  `index` is
its position in the list of follow-ups. -/
structure FollowUpEvent (f : FollowUp) (index : ℕ) (targets : List String) (snapshot application : ℚ)
    (e : Event) : Prop where
  priority : e.priority = Utils.transformTimeToPrio e.primary + (index + 1)
  applied : appliedAt e = application + f.delayAfterParentApplication
  withParent : f.snapshotBuffsWithParent = true ∨ f.snapshotDebuffsWithParent = true →
    e.primary = snapshot
  alone : f.snapshotBuffsWithParent = false → f.snapshotDebuffsWithParent = false →
    e.primary = appliedAt e ∧ e.snapshotBuffs = .flag true ∧ e.snapshotDebuffs = .flag true
  flags : e.primary ≠ appliedAt e → e.snapshotBuffs = .flag f.snapshotBuffsWithParent ∧
    e.snapshotDebuffs = .flag f.snapshotDebuffsWithParent
  skill : e.skill = f.skill.toSkill
  modifier : e.modifier = {}
  targets : e.targets = if f.primaryTargetOnly then targets.take 1 else targets

/-- When a skill used at `t` with the given cast time snapshots: half a second before the cast is
over. -/
def snapshotsAt (t cast : ℚ) : ℚ := t + max 0 (cast - 500)

/-- When it is applied: after the cast and the application delay, of which half a second already
passes during a cast. -/
def appliesAt (t cast : ℚ) (m : SkillModifier) (timing : TimingSpec) : ℚ :=
  if m.ignoreApplicationDelay then t + cast
  else if cast > 1 / 1000000 then t + cast + max 0 (timing.applicationDelay - 500)
  else t + cast + timing.applicationDelay

end Ama.Spec
