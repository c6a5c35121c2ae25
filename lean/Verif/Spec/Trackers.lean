import Verif.Model.JobResourceTracker
import Verif.Model.ComboTracker
import Verif.Model.ChannelingTracker

/-!
# Specification vocabulary for the gauge, combo and channeling trackers
-/

namespace Ama.Spec

/-! ## Gauges -/

/-- A call of a public method of the gauge tracker. -/
inductive GaugeOp
  /-- `add_resource(t, skill, modifier)` -/
  | add (t : ℚ) (skill : SkillCore) (m : SkillModifier)
  /-- `compile_job_resources(t, skill)` -/
  | query (t : ℚ) (skillName : String)

/-- Perform a history of calls, ignoring what the queries return. -/
def runGauge (tr : JobResourceTracker) : List GaugeOp → Py JobResourceTracker
  | [] => .ok tr
  | .add t skill m :: ops => do runGauge (← tr.addResource t skill m) ops
  | .query t s :: ops => do runGauge (← tr.compile t s).2 ops

/-- The call is a gauge change (not a query). -/
def GaugeOp.isAdd : GaugeOp → Bool
  | .add _ _ _ => true
  | .query _ _ => false

/-- The time of a call. -/
def GaugeOp.time : GaugeOp → ℚ
  | .add t _ _ => t
  | .query t _ => t

/-- At time `t` the skill is told that the gauge `name` holds `n`. -/
def Reported (tr : JobResourceTracker) (t : ℚ) (skillName name : String) (n : ℤ) : Prop :=
  ∃ reports tr' s, tr.compileReports t skillName = .ok (reports, tr') ∧ (name, n, s) ∈ reports

/-- The call adds nothing to any gauge. -/
def NoGain : GaugeOp → Prop
  | .add _ skill m => ∀ specs, skill.getJobResourceSpec m = .ok specs →
      ∀ spec ∈ specs, spec.clearAllResourcesOnly = true ∨ spec.change ≤ 0
  | .query _ _ => True

/-! ## Combos -/

/-- A use of a combo skill. -/
structure ComboUse where
  time : ℚ
  skill : SkillCore
  modifier : SkillModifier

/-- Perform a history of uses; returns what each of them reported. -/
def runCombo (tr : ComboTracker) : List ComboUse → Py (List String × ComboTracker)
  | [] => .ok ([], tr)
  | u :: us => do
    let (out, tr) ← tr.compileAndUpdate u.time u.skill u.modifier
    let (outs, tr) ← runCombo tr us
    return (out :: outs, tr)

/-- The combo groups that an action of group `g` breaks. -/
def Breaks (breakers : Dict ℤ (List ℤ)) (g broken : ℤ) : Prop :=
  ∃ gs, (broken, gs) ∈ breakers ∧ g ∈ gs

/-- The use has no influence on the combo group `g`: it has no combo action of that group, breaks
neither that group nor all groups. -/
def LeavesGroup (breakers : Dict ℤ (List ℤ)) (g : ℤ) (u : ComboUse) : Prop :=
  ∀ specs, u.skill.getComboSpec u.modifier = .ok specs → ∀ spec ∈ specs,
    spec.breakAllCombosOnly = false ∧ spec.comboGroup ≠ g ∧ ¬ Breaks breakers spec.comboGroup g

/-- One combo action: a combo specification of a use.  A skill can take part in several combos; its
specifications count as consecutive combo actions. -/
structure ComboAction where
  /-- position of the use in the history -/
  use : ℕ
  time : ℚ
  name : String
  forced : Bool
  spec : ComboSpec

/-- The combo actions of a history, in order; `n` is the position of its first use. -/
def comboActions : ℕ → List ComboUse → List ComboAction
  | _, [] => []
  | n, u :: us =>
    (match u.skill.getComboSpec u.modifier with
      | .ok specs => specs.map (fun s => ⟨n, u.time, u.skill.name, u.modifier.forceCombo, s⟩)
      | .error _ => []) ++ comboActions (n + 1) us

/-- The action has no influence on the combo group `g`: it belongs to another group and breaks
neither that group nor all groups. -/
def ComboAction.Leaves (breakers : Dict ℤ (List ℤ)) (g : ℤ) (a : ComboAction) : Prop :=
  a.spec.breakAllCombosOnly = false ∧ a.spec.comboGroup ≠ g ∧ ¬ Breaks breakers a.spec.comboGroup g

/-- The combo rule.  The `p`-th combo action of the list `as` succeeds if it auto-succeeds, is
forced, needs no predecessor, or follows within 30 s a successful action of the same group that is
one of its predecessors, with no action in between touching the group. -/
inductive ComboOk (breakers : Dict ℤ (List ℤ)) (as : List ComboAction) : ℕ → Prop
  | auto (p : ℕ) (a : ComboAction) : as[p]? = some a → a.spec.comboAutoSucceed = true →
      ComboOk breakers as p
  | forced (p : ℕ) (a : ComboAction) : as[p]? = some a → a.forced = true → ComboOk breakers as p
  | first (p : ℕ) (a : ComboAction) : as[p]? = some a → a.spec.comboActions = [] →
      ComboOk breakers as p
  | follows (p q : ℕ) (a b : ComboAction) : as[p]? = some a → as[q]? = some b → q < p →
      b.spec.breakAllCombosOnly = false → b.spec.comboGroup = a.spec.comboGroup →
      ¬ Breaks breakers b.spec.comboGroup b.spec.comboGroup → ComboOk breakers as q →
      (∀ k c, q < k → k < p → as[k]? = some c → c.Leaves breakers a.spec.comboGroup) →
      b.name ∈ a.spec.comboActions → a.time ≤ b.time + 30000 → ComboOk breakers as p

/-! ## Channeling -/

/-- A skill use seen by the channeling tracker. -/
structure ChannelUse where
  time : ℚ
  skill : SkillCore
  modifier : SkillModifier

/-- Waiting is not a skill use. -/
def ChannelUse.isWait (u : ChannelUse) : Bool := strContains SimConsts.WAIT_PREFIX u.skill.name

/-- The use starts channeling with `spec`. -/
def ChannelUse.channels (u : ChannelUse) : Option ChannelingSpec :=
  if u.isWait then none
  else match u.skill.getChannelingSpec u.modifier with
    | .ok s => s
    | .error _ => none

/-- Looking up the channeling specification does not raise. -/
def ChannelUse.Readable (u : ChannelUse) : Prop :=
  u.isWait = true ∨ ∃ s, u.skill.getChannelingSpec u.modifier = .ok s

/-- The time of the first use that interrupts a channel with `uses` remaining allowed uses. -/
def interruptTime (spec : ChannelingSpec) : WithTop ℤ → List ChannelUse → Option ℚ
  | _, [] => none
  | uses, u :: us =>
    if u.isWait then interruptTime spec uses us
    else if u.channels.isSome then some u.time
    else if u.skill.name ∈ spec.skillAllowlist ∧ 1 < uses then
      interruptTime spec (uses.map (· - 1)) us
    else some u.time

/-- The expected channeling windows: each channeling use opens a window that closes after its
duration or at the first interrupting use, whichever comes first. -/
def expectedWindows : List ChannelUse → List (ℚ × WithTop ℚ)
  | [] => []
  | u :: us =>
    match u.channels with
    | none => expectedWindows us
    | some spec =>
      (u.time,
        match interruptTime spec spec.numUses us with
        | none => (u.time : WithTop ℚ) + spec.duration
        | some t => min ((u.time : WithTop ℚ) + spec.duration) (t : WithTop ℚ)) :: expectedWindows us

/-- Process all uses, finalize, and return the windows. -/
def runChanneling (us : List ChannelUse) : Py (List (ℚ × WithTop ℚ)) := do
  let tr ← us.foldlM (fun (tr : ChannelingTracker) u => tr.process u.time u.skill u.modifier) {}
  (← tr.finalize).getWindows

end Ama.Spec
