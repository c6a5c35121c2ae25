import Verif.Model.Events
import Verif.Model.Stats
import Verif.Model.Positional
import Verif.Model.SkillLibrary
import Verif.Model.StatusEffectTracker
import Verif.Model.JobResourceTracker
import Verif.Model.ComboTracker
import Verif.Model.ChannelingTracker

/-!
# Model of `simulator/timeline_builders/rotation_builder.py`

Methods take the builder and return the changed builder.  Times are in milliseconds.
-/

namespace Ama

/-- A downtime window after conversion to milliseconds: `(start, end, damage_class)`,
rotation_builder.py:83-90. -/
structure Window where
  start : ℚ
  stop : ℚ
  damageClass : Option DamageClass
deriving DecidableEq

/-- A downtime window as given by the user, in seconds, rotation_builder.py:35-46. -/
structure RawWindow where
  start : ℚ
  stop : ℚ
  damageClass : Option DamageClass := none
deriving DecidableEq

/-- The constructor argument `downtime_windows`: a tuple or a dictionary, rotation_builder.py:35-47. -/
inductive RawDowntime
  | tuple (ws : List RawWindow)
  | dict (d : Dict String (List RawWindow))
deriving DecidableEq

/-- The attribute `__downtime_windows`: a tuple (before the first `get_skill_timing`), a dictionary
given by the user, or the dictionary built at rotation_builder.py:107-111, which maps each of the
targets known at that moment to the same windows. -/
inductive Downtime
  | tuple (ws : List Window)
  | dict (d : Dict String (List Window))
  | known (targets : Finset String) (ws : List Window)
deriving DecidableEq

/-- An entry of `_q_timed`, rotation_builder.py:178. -/
structure TimedPress where
  t : ℤ
  skill : Skill
  modifier : SkillModifier
  jobClass : String
  targets : List String
deriving DecidableEq

/-- An entry of `_q_sequence`, rotation_builder.py:162. -/
structure SeqPress where
  skill : Skill
  modifier : SkillModifier
  jobClass : String
  targets : List String
deriving DecidableEq

/-- An entry of `__q_button_press_timing`, rotation_builder.py:485-492; the joined set of conditions
is kept as a set. -/
structure Press where
  t : ℚ
  name : String
  jobClass : String
  conds : Conds
deriving DecidableEq

/-- One application of a dot: `(parent_snapshot_time, parent_application_time, priority_modifier)`,
rotation_builder.py:227-233. -/
structure DotApp where
  snapshot : ℚ
  application : ℚ
  prioMod : ℤ
deriving DecidableEq

/-- The attribute `_q_dot_skills`: target, then follow-up, then applications. -/
abbrev Dots := Dict String (Dict FollowUp (List DotApp))

/-- rotation_builder.py:27-76: the attributes of a builder. -/
structure RotationBuilder where
  stats : Stats
  lib : SkillLibrary
  snapDots : Option ℚ
  enableAutos : Bool
  ignoreTrailingDots : Bool
  fightStart : Option ℚ
  priority : List String
  downtime : Downtime
  defaultTarget : String
  allTargets : Finset String := ∅
  qTimed : List TimedPress := []
  qSequence : List SeqPress := []
  qDot : Dots := []
  presses : List Press := []
  events : Events := {}
  timestamps : List (ℚ × String) := []
deriving DecidableEq

/-- The trackers that `__process_skill` changes. -/
structure Trackers where
  se : StatusEffectTracker
  res : JobResourceTracker
deriving DecidableEq

namespace RotationBuilder

/-! ## Construction and adding skills -/

/-- rotation_builder.py:79-91 `__do_init_downtime_windows` -/
def initWindows (ws : List RawWindow) : List Window :=
  ws.map (fun w => { start := w.start * 1000, stop := w.stop * 1000, damageClass := w.damageClass })

/-- rotation_builder.py:94-104 `__init_downtime_windows`.  Simplification: the change of the user's
dictionary in place is not represented. -/
def initDowntime : RawDowntime → Downtime
  | .tuple ws => .tuple (initWindows ws)
  | .dict d => .dict (d.map (fun kv => (kv.1, initWindows kv.2)))

/-- rotation_builder.py:27-76 `__init__` -/
def init (stats : Stats) (lib : SkillLibrary) (snapDots : Option ℚ := none)
    (enableAutos ignoreTrailingDots : Bool := false) (fightStart : Option ℚ := none)
    (downtime : RawDowntime := .tuple []) (defaultTarget : String := SimConsts.DEFAULT_TARGET) :
    Py RotationBuilder := do
  let priority ← lib.getStatusEffectPriority stats.jobClass
  return {
    stats := stats
    lib := lib
    snapDots := snapDots
    enableAutos := enableAutos
    ignoreTrailingDots := ignoreTrailingDots
    fightStart := fightStart
    priority := priority
    downtime := initDowntime downtime
    defaultTarget := defaultTarget }

/-- rotation_builder.py:106-111 `__process_downtime_windows` -/
def processDowntimeWindows (rb : RotationBuilder) : RotationBuilder :=
  match rb.downtime with
  | .tuple ws => { rb with downtime := .known rb.allTargets ws }
  | _ => rb

/-- `self.__downtime_windows.get(target, tuple())`, rotation_builder.py:698 and 899.  A tuple has no
method `get`. -/
def windowsFor (rb : RotationBuilder) (target : String) : Py (List Window) :=
  match rb.downtime with
  | .tuple _ => .error .attributeError
  | .dict d => .ok ((Dict.get? d target).getD [])
  | .known targets ws => .ok (if target ∈ targets then ws else [])

/-- rotation_builder.py:113-116 `get_button_press_timing` -/
def getButtonPressTiming (rb : RotationBuilder) : List Press := sortBy (·.t) rb.presses

/-- rotation_builder.py:118-119 `set_ignore_trailing_dots` -/
def setIgnoreTrailingDots (rb : RotationBuilder) (b : Bool) : RotationBuilder :=
  { rb with ignoreTrailingDots := b }

/-- rotation_builder.py:121-122 `set_enable_autos` -/
def setEnableAutos (rb : RotationBuilder) (b : Bool) : RotationBuilder := { rb with enableAutos := b }

/-- The split at rotation_builder.py:130 -/
def splitTargets (targets : String) : List String :=
  (splitComma targets.toList).map (fun x => String.ofList (stripChars x))

/-- rotation_builder.py:124-133 `__process_and_check_targets` -/
def processTargets (rb : RotationBuilder) (targets : Option String) :
    List String × RotationBuilder :=
  let all := splitTargets (targets.getD rb.defaultTarget)
  (all, { rb with allTargets := rb.allTargets ∪ all.toFinset })

/-- rotation_builder.py:141-145 `get_default_skill_modifier`; the test
`job_class is not None or job_class != ""` is always true. -/
def getDefaultSkillModifier (rb : RotationBuilder) (skill : Skill) (jobClass : String) :
    SkillModifier :=
  if jobClass ≠ rb.stats.jobClass then SkillModifier.make skill.offClassDefaultCondition
  else SkillModifier.make

/-- rotation_builder.py:147-162 `add_next` -/
def addNext (rb : RotationBuilder) (skillName : String) (modifier : Option SkillModifier := none)
    (jobClass : Option String := none) (numTimes : ℕ := 1) (targets : Option String := none) :
    Py RotationBuilder := do
  let (targets, rb) := rb.processTargets targets
  let jobClass := jobClass.getD rb.stats.jobClass
  let skill ← rb.lib.getSkill skillName jobClass
  let modifier := modifier.getD (rb.getDefaultSkillModifier skill jobClass)
  let p : SeqPress :=
    { skill := skill, modifier := modifier, jobClass := jobClass, targets := targets }
  return { rb with qSequence := rb.qSequence ++ List.replicate numTimes p }

/-- rotation_builder.py:164-178 `add` -/
def add (rb : RotationBuilder) (t : ℚ) (skillName : String)
    (modifier : Option SkillModifier := none) (jobClass : Option String := none)
    (targets : Option String := none) : Py RotationBuilder := do
  let (targets, rb) := rb.processTargets targets
  let jobClass := jobClass.getD rb.stats.jobClass
  let skill ← rb.lib.getSkill skillName jobClass
  let modifier := modifier.getD (rb.getDefaultSkillModifier skill jobClass)
  let p : TimedPress :=
    { t := pyInt (1000 * t), skill := skill, modifier := modifier, jobClass := jobClass,
      targets := targets }
  return { rb with qTimed := rb.qTimed ++ [p] }

/-! ## Processing one skill -/

/-- rotation_builder.py:184-211 `__get_cast_time`; subtracting an infinite reduction gives `-inf`,
hence 0. -/
def getCastTime (stats : Stats) (timingSpec : Option TimingSpec) (m : SkillModifier)
    (buffs : StatusEffects) : Py ℚ :=
  if m.ignoreCastTimes then .ok 0
  else match timingSpec with
    | none => .error .attributeError
    | some ts => do
      let traitMult := 1 - stats.processed.traitHasteTimeReduction
      let cast : ℚ ← if ts.affectedBySpeedStat then do
          let x ← StatFns.getTimeUsingSpeedStat ts.baseCastTime stats.speedStat stats.version stats.level
          pure (x : ℚ)
        else pure ts.baseCastTime
      let cast : ℚ := if ts.affectedByHasteBuffs then
          (Utils.truncateToDigit (cast * buffs.hasteTimeMult * traitMult) 2 : ℚ)
        else cast
      match buffs.flatCastTimeReduction with
      | ⊤ => return 0
      | (x : ℚ) => return max 0 (cast - x)

/-- One iteration of rotation_builder.py:221-233 -/
def addDotApp (dots : Dots) (f : FollowUp) (app : DotApp) (target : String) : Dots :=
  let perTarget := (Dict.get? dots target).getD []
  let apps := (Dict.get? perTarget f).getD []
  Dict.set dots target (Dict.set perTarget f (apps ++ [app]))

/-- rotation_builder.py:213-233 `__process_dot_follow_up_skill` -/
def processDotFollowUp (rb : RotationBuilder) (f : FollowUp) (prioMod : ℤ)
    (parentSnapshot parentApplication : ℚ) (targets : List String) : RotationBuilder :=
  let app : DotApp :=
    { snapshot := parentSnapshot, application := parentApplication, prioMod := prioMod }
  { rb with qDot := targets.foldl (fun dots target => addDotApp dots f app target) rb.qDot }

/-- `self._q_snapshot_and_applications.add(...)` -/
def addEvent (rb : RotationBuilder) (a : NewEvent) : Py RotationBuilder := do
  return { rb with events := ← rb.events.add a }

/-- rotation_builder.py:245-275: the event of a follow-up that is not a dot -/
def followUpEvent (f : FollowUp) (prioMod : ℤ) (parentSnapshot parentApplication : ℚ)
    (targets : List String) : NewEvent :=
  let applicationTime := parentApplication + f.delayAfterParentApplication
  let withParent := f.snapshotBuffsWithParent || f.snapshotDebuffsWithParent
  let snapshotTime := if withParent then parentSnapshot else applicationTime
  { priority := Utils.transformTimeToPrio snapshotTime + prioMod
    primary := snapshotTime
    secondary := some applicationTime
    skill := f.skill.toSkill
    modifier := {}
    snapshotBuffs := .flag (if withParent then f.snapshotBuffsWithParent else true)
    snapshotDebuffs := .flag (if withParent then f.snapshotDebuffsWithParent else true)
    targets := targets }

/-- rotation_builder.py:235-279 `__process_non_dot_follow_up_skill` -/
def processNonDotFollowUp (rb : RotationBuilder) (f : FollowUp) (prioMod : ℤ)
    (parentSnapshot parentApplication : ℚ) (tr : Trackers) (targets : List String) :
    Py (RotationBuilder × Trackers) := do
  let targets ← if f.primaryTargetOnly then do pure [← pyIdx targets 0] else pure targets
  let rb ← rb.addEvent (followUpEvent f prioMod parentSnapshot parentApplication targets)
  let applicationTime := parentApplication + f.delayAfterParentApplication
  let se ← tr.se.add applicationTime f.skill {} targets
  let res ← tr.res.addResource applicationTime f.skill {}
  return (rb, { se := se, res := res })

/-- One iteration of rotation_builder.py:290-310 -/
def followUpStep (parentSnapshot parentApplication : ℚ) (targets : List String)
    (acc : RotationBuilder × Trackers) (fi : FollowUp × ℕ) : Py (RotationBuilder × Trackers) :=
  let prioMod : ℤ := fi.2 + 1
  if fi.1.dotDuration.isSome then
    .ok (acc.1.processDotFollowUp fi.1 prioMod parentSnapshot parentApplication targets, acc.2)
  else acc.1.processNonDotFollowUp fi.1 prioMod parentSnapshot parentApplication acc.2 targets

/-- rotation_builder.py:281-310 `_process_follow_up_skills` -/
def processFollowUps (rb : RotationBuilder) (fs : List FollowUp)
    (parentSnapshot parentApplication : ℚ) (tr : Trackers) (targets : List String) :
    Py (RotationBuilder × Trackers) :=
  fs.zipIdx.foldlM (followUpStep parentSnapshot parentApplication targets) (rb, tr)

/-- rotation_builder.py:430-443: the application time, given the cast time.  The attribute access at
437 and 440-442 raises for a missing timing spec. -/
def applicationTimeOf (t castTime : ℚ) (m : SkillModifier) (timingSpec : Option TimingSpec) : Py ℚ :=
  if m.ignoreApplicationDelay then .ok (t + castTime)
  else match timingSpec with
    | none => .error .attributeError
    | some ts =>
      let delay := if castTime > 1 / 1000000 then
          max 0 (-GameConsts.DAMAGE_SNAPSHOT_TIME_BEFORE_CAST_FINISHES + ts.applicationDelay)
        else ts.applicationDelay
      .ok (t + castTime + delay)

/-- rotation_builder.py:413-470 `__process_skill` -/
def processSkill (rb : RotationBuilder) (t : ℚ) (skill : Skill) (m : SkillModifier) (tr : Trackers)
    (buffs : StatusEffects) (targets : List String) : Py (RotationBuilder × Trackers) := do
  let timingSpec ← skill.getTimingSpec m
  let castTime ← getCastTime rb.stats timingSpec m buffs
  let snapshotTime :=
    t + max 0 (castTime - GameConsts.DAMAGE_SNAPSHOT_TIME_BEFORE_CAST_FINISHES)
  let applicationTime ← applicationTimeOf t castTime m timingSpec
  let rb ← rb.addEvent {
    priority := Utils.transformTimeToPrio snapshotTime
    primary := snapshotTime
    secondary := some applicationTime
    skill := skill
    modifier := m
    snapshotBuffs := .flag true
    snapshotDebuffs := .flag true
    targets := targets }
  let se ← tr.se.add applicationTime skill.toSkillCore m targets
  let res ← tr.res.addResource snapshotTime skill.toSkillCore m
  let followUps ← skill.getFollowUpSkills m
  rb.processFollowUps followUps snapshotTime applicationTime { se := se, res := res } targets

/-! ## The queues -/

/-- The state of the loops over the queues: the builder and the three trackers
(rotation_builder.py:473-479, 538-544). -/
structure LoopState where
  rb : RotationBuilder
  tr : Trackers
  combo : ComboTracker
deriving DecidableEq

/-- rotation_builder.py:473-479 and 538-544 -/
def initTrackers (rb : RotationBuilder) : Py (Trackers × ComboTracker) := do
  let settings ← rb.lib.getAllResourceSettings rb.stats.jobClass
  let breakers ← rb.lib.getAllComboBreakers rb.stats.jobClass
  return ({ se := { priority := rb.priority }, res := JobResourceTracker.init settings },
    { comboBreakers := breakers })

/-- What is known about a press after rotation_builder.py:494-524 / 564-594: the buffs and debuffs,
the final modifier, and the trackers. -/
structure Resolved where
  buffs : StatusEffects
  debuffs : StatusEffects
  modifier : SkillModifier
  tr : Trackers
  combo : ComboTracker
deriving DecidableEq

/-- rotation_builder.py:494-513 / 564-583 without the final modifier's combo and positional parts
(also 854 and 856-874, where channeling is processed in between). -/
def resolveConditions (t : ℚ) (skill : Skill) (m : SkillModifier) (tr : Trackers) :
    Py (StatusEffects × StatusEffects × SkillModifier × Trackers) := do
  let se := tr.se.expire t
  let ((buffs, condB), se) ← se.compileBuffs t skill.toSkillCore
  let ((debuffs, condD), se) ← se.compileDebuffs t skill.toSkillCore
  let (condR, res) ← tr.res.compile t skill.name
  let m := ((m.addToCondition condB).addToCondition condD).addToCondition condR
  return (buffs, debuffs, m, { se := se, res := res })

/-- rotation_builder.py:494-524 / 564-594 -/
def resolve (t : ℚ) (skill : Skill) (m : SkillModifier) (tr : Trackers) (combo : ComboTracker) :
    Py Resolved := do
  let (buffs, debuffs, m, tr) ← resolveConditions t skill m tr
  let (condC, combo) ← combo.compileAndUpdate t skill.toSkillCore m
  let m := m.addToCondition condC
  let m ← Utils.addPositional skill m
  return { buffs, debuffs, modifier := m, tr, combo }

/-- The entry appended at rotation_builder.py:485-492 / 555-562 -/
def mkPress (rb : RotationBuilder) (t : ℚ) (skill : Skill) (m : SkillModifier) (jobClass : String) :
    Press :=
  { t := t, name := skill.name, jobClass := if jobClass ≠ rb.stats.jobClass then jobClass else "",
    conds := m.withCondition }

/-- rotation_builder.py:485-492 -/
def recordPress (rb : RotationBuilder) (p : Press) : RotationBuilder :=
  { rb with presses := rb.presses ++ [p] }

/-- rotation_builder.py:526 / 598 -/
def recordTarget (rb : RotationBuilder) (t : ℚ) (targets : List String) : Py RotationBuilder := do
  return { rb with timestamps := rb.timestamps ++ [(t, ← pyIdx targets 0)] }

/-- The comparison of the tuples in `_q_timed`: the first different component decides.  Skill
modifiers have their own `__eq__`, and `<` between them is always false (their dataclass has no
fields, skill_modifier.py:9-10). -/
def TimedPress.pyLt (a b : TimedPress) : Py Bool :=
  if a.t ≠ b.t then .ok (decide (a.t < b.t))
  else if a.skill ≠ b.skill then Skill.pyLt a.skill b.skill
  else if !a.modifier.pyEq b.modifier then .ok false
  else if a.jobClass ≠ b.jobClass then .ok (decide (a.jobClass < b.jobClass))
  else .ok (strTupleLt a.targets b.targets)

/-- The body of the loop, rotation_builder.py:485-535 -/
def timedStep (s : LoopState) (p : TimedPress) : Py LoopState := do
  let rb := s.rb.recordPress (s.rb.mkPress p.t p.skill p.modifier p.jobClass)
  let r ← resolve p.t p.skill p.modifier s.tr s.combo
  let rb ← rb.recordTarget p.t p.targets
  let (rb, tr) ← rb.processSkill p.t p.skill r.modifier r.tr r.buffs p.targets
  return { rb, tr, combo := r.combo }

/-- The loop, rotation_builder.py:483-535.  Each iteration removes one entry, so the length of the
queue bounds the number of iterations. -/
def timedLoop : ℕ → LoopState → List TimedPress → Py LoopState
  | 0, s, q => if q.length > 0 then .error .outOfFuel else .ok s
  | n + 1, s, q =>
    if q.length > 0 then do
      let (p, q) ← Heapq.heappop TimedPress.pyLt q
      timedLoop n (← timedStep s p) q
    else .ok s

/-- rotation_builder.py:472-535 `__process_q_timed` -/
def processQTimed (rb : RotationBuilder) : Py RotationBuilder := do
  let (tr, combo) ← rb.initTrackers
  let q := sortBy (·.t) rb.qTimed
  let s ← timedLoop q.length { rb, tr, combo } q
  return s.rb

/-- rotation_builder.py:610-638: the recast time of a GCD -/
def recastTime (stats : Stats) (ts : TimingSpec) (buffs debuffs : StatusEffects) : Py ℚ := do
  let traitMult := 1 - stats.processed.traitHasteTimeReduction
  let recast : ℚ ← if ts.affectedBySpeedStat then do
      let x ← StatFns.getTimeUsingSpeedStat ts.gcdBaseRecastTime stats.speedStat stats.version
        stats.level
      pure (x : ℚ)
    else pure ts.gcdBaseRecastTime
  let recast : ℚ := if ts.affectedByHasteBuffs then
      (Utils.truncateToDigit (recast * buffs.hasteTimeMult * debuffs.hasteTimeMult * traitMult) 2 : ℚ)
    else recast
  let recast := recast - buffs.flatGcdRecastTimeReduction
  return if ts.gcdBaseRecastTime = GameConsts.GCD_RECAST_TIME then
    max recast GameConsts.MIN_GCD_RECAST_TIME else recast

/-- `timing_spec.x` where `timing_spec` may be `None` -/
def needTiming (ts : Option TimingSpec) : Py TimingSpec :=
  match ts with
  | none => .error .attributeError
  | some ts => .ok ts

/-- The state of the loop over `_q_sequence`, rotation_builder.py:546-552: `nextGcd = ⊥` is
`-math.inf`. -/
structure SeqState where
  s : LoopState
  currT : ℚ
  nextGcd : WithBot ℚ
deriving DecidableEq

/-- rotation_builder.py:553-554: the time of the press -/
def pressTime (isGCD : Bool) (currT : ℚ) (nextGcd : WithBot ℚ) : ℚ :=
  if isGCD then
    match nextGcd with
    | ⊥ => currT
    | (x : ℚ) => max currT x
  else currT

/-- The body of the loop, rotation_builder.py:553-655.  `is_GCD = None` is falsy. -/
def seqStep (st : SeqState) (p : SeqPress) : Py SeqState := do
  let isGCD := p.skill.isGCD.getD false
  let t := pressTime isGCD st.currT st.nextGcd
  let rb := st.s.rb.recordPress (st.s.rb.mkPress t p.skill p.modifier p.jobClass)
  let r ← resolve t p.skill p.modifier st.s.tr st.s.combo
  let timingSpec ← p.skill.getTimingSpec r.modifier
  let rb ← rb.recordTarget t p.targets
  let (rb, tr) ← rb.processSkill t p.skill r.modifier r.tr r.buffs p.targets
  let s : LoopState := { rb, tr, combo := r.combo }
  let ts ← needTiming timingSpec
  if isGCD then
    let recast ← recastTime rb.stats ts r.buffs r.debuffs
    let castTime ← getCastTime rb.stats (some ts) r.modifier r.buffs
    return { s, currT := t + (castTime + ts.animationLock), nextGcd := ((t + recast : ℚ) : WithBot ℚ) }
  else
    return { s, currT := t + ts.animationLock, nextGcd := st.nextGcd }

/-- rotation_builder.py:537-655 `__process_q_sequence` -/
def processQSequence (rb : RotationBuilder) : Py RotationBuilder := do
  let (tr, combo) ← rb.initTrackers
  let st ← rb.qSequence.foldlM seqStep
    { s := { rb, tr, combo }, currT := rb.fightStart.getD 0, nextGcd := ⊥ }
  return st.s.rb

/-! ## Dots -/

/-- A time range of a dot: the tuples built at rotation_builder.py:325-331 and 347-349. -/
structure DotRange where
  start : ℚ
  stop : ℚ
  snapshot : ℚ
  prioMod : ℤ
deriving DecidableEq

/-- rotation_builder.py:312-332 `__get_base_dot_timings`, given the list of applications -/
def baseDotTimings (duration : ℤ) (apps : List DotApp) : List DotRange :=
  sortBy (·.start) (apps.map (fun a =>
    { start := a.application, stop := a.application + duration, snapshot := a.snapshot,
      prioMod := a.prioMod }))

/-- rotation_builder.py:334-350 `__get_consolidated_dot_timing` -/
def consolidate : List DotRange → List DotRange
  | [] => []
  | [r] => [r]
  | r :: r' :: rs => { r with stop := min r.stop r'.start } :: consolidate (r' :: rs)

/-- rotation_builder.py:373-389: the first tick -/
def dotStart (snapDots : Option ℚ) (start : ℚ) : ℚ :=
  match snapDots with
  | none => start
  | some s =>
    let shaveOff := pyMod (start - 1000 * s) GameConsts.DOT_TICK_INTERVAL
    if shaveOff ≤ 1 / 1000000 then start
    else (pyInt (start - shaveOff + GameConsts.DOT_TICK_INTERVAL) : ℚ)

/-- rotation_builder.py:395-410: the event of one tick -/
def dotEvent (f : FollowUp) (target : String) (r : DotRange) (dotNum : ℕ) (applicationTime : ℤ) :
    NewEvent :=
  { priority := Utils.transformTimeToPrio r.snapshot + (r.prioMod + dotNum)
    primary := r.snapshot
    secondary := some (applicationTime : ℚ)
    skill := f.skill.toSkill
    modifier := {}
    snapshotBuffs := .flag f.snapshotBuffsWithParent
    snapshotDebuffs := .flag f.snapshotDebuffsWithParent
    targets := [target] }

/-- rotation_builder.py:393: the tick is skipped.  A last event time of `0` is falsy. -/
def tickSkipped (lastEventTime : Option ℚ) (applicationTime : ℤ) : Bool :=
  match lastEventTime with
  | none => false
  | some l => decide (l ≠ 0) && decide ((applicationTime : ℚ) > l)

/-- The body of the loop over ticks, rotation_builder.py:393-411 -/
def tickStep (f : FollowUp) (target : String) (lastEventTime : Option ℚ) (r : DotRange)
    (acc : RotationBuilder × ℕ) (applicationTime : ℤ) : Py (RotationBuilder × ℕ) :=
  if tickSkipped lastEventTime applicationTime then .ok acc
  else do return (← acc.1.addEvent (dotEvent f target r acc.2 applicationTime), acc.2 + 1)

/-- The body of the loop over ranges, rotation_builder.py:373-411 -/
def rangeStep (f : FollowUp) (target : String) (lastEventTime : Option ℚ)
    (acc : RotationBuilder × ℕ) (r : DotRange) : Py (RotationBuilder × ℕ) := do
  let ticks ← pyRange (dotStart acc.1.snapDots r.start) r.stop GameConsts.DOT_TICK_INTERVAL
  ticks.foldlM (tickStep f target lastEventTime r) acc

/-- The body of the loop over dots, rotation_builder.py:356-411.  The keys have a duration
(rotation_builder.py:293). -/
def dotStep (target : String) (lastEventTime : Option ℚ) (rb : RotationBuilder)
    (fa : FollowUp × List DotApp) : Py RotationBuilder := do
  match fa.1.dotDuration with
  | none => .error .typeError
  | some duration =>
    let (rb, _) ← (consolidate (baseDotTimings duration fa.2)).foldlM
      (rangeStep fa.1 target lastEventTime) (rb, 0)
    return rb

/-- rotation_builder.py:352-411 `__process_all_dots` -/
def processAllDots (rb : RotationBuilder) (lastEventTime : Option ℚ) : Py RotationBuilder :=
  rb.qDot.foldlM (fun rb td => td.2.foldlM (dotStep td.1 lastEventTime) rb) rb

/-! ## Normalisation and downtime -/

/-- The event added at rotation_builder.py:679-694 -/
def shiftedEvent (first : ℚ) (e : Event) : NewEvent :=
  { priority := e.priority - Utils.transformTimeToPrio first
    primary := e.primary - first
    secondary := e.secondary.map (· - first)
    skill := e.skill
    modifier := e.modifier
    snapshotBuffs := e.snapshotBuffs
    snapshotDebuffs := e.snapshotDebuffs
    targets := e.targets }

/-- The loop, rotation_builder.py:666-694; each iteration removes one event. -/
def shiftLoop (first : ℚ) : ℕ → Events → Events → Py Events
  | 0, evs, res => if evs.isEmpty then .ok res else .error .outOfFuel
  | n + 1, evs, res =>
    if evs.isEmpty then .ok res
    else do
      let (e, evs) ← evs.getNext
      shiftLoop first n evs (← res.add (shiftedEvent first e))

/-- rotation_builder.py:657-695 `shift_timelines_for_first_damage_instance` with the assignment of its
result at 777-779 -/
def shiftTimelines (rb : RotationBuilder) : Py RotationBuilder := do
  match ← rb.events.getFirstDamageTime with
  | none => return rb
  | some first =>
    let events ← shiftLoop first rb.events.q.length rb.events {}
    return { rb with
      presses := rb.presses.map (fun p => { p with t := p.t - first })
      events := events }

/-- rotation_builder.py:697-703 `__filter_by_downtime_range_and_damage_class` -/
def inDowntime (rb : RotationBuilder) (t : ℚ) (target : String) (cls : DamageClass) : Py Bool := do
  let ws ← rb.windowsFor target
  return ws.any (fun w => decide (w.start ≤ t ∧ t < w.stop) &&
    (w.damageClass.isNone || decide (w.damageClass = some cls)))

/-- The body of the loop over targets, rotation_builder.py:727-740: the target is kept -/
def targetKept (rb : RotationBuilder) (e : Event) (target : String) : Py Bool := do
  match ← e.skill.getDamageSpec e.modifier with
  | none => return true
  | some spec =>
    if ← rb.inDowntime (Events.applicationTime e) target spec.damageClass then return false
    else return !(← rb.inDowntime e.primary target spec.damageClass)

/-- The loop over targets, rotation_builder.py:726-740 -/
def validTargets (rb : RotationBuilder) (e : Event) : List String → Py (List String)
  | [] => .ok []
  | target :: targets => do
    let keep ← rb.targetKept e target
    let rest ← rb.validTargets e targets
    return if keep then target :: rest else rest

/-- The event added at rotation_builder.py:742-750 -/
def keptEvent (e : Event) (targets : List String) : NewEvent :=
  { priority := e.priority
    primary := e.primary
    secondary := e.secondary
    skill := e.skill
    modifier := e.modifier
    snapshotBuffs := e.snapshotBuffs
    snapshotDebuffs := e.snapshotDebuffs
    targets := targets }

/-- The loop, rotation_builder.py:707-750 -/
def removeLoop (rb : RotationBuilder) : ℕ → Events → Events → Py Events
  | 0, evs, res => if evs.isEmpty then .ok res else .error .outOfFuel
  | n + 1, evs, res =>
    if evs.isEmpty then .ok res
    else do
      let (e, evs) ← evs.getNext
      let targets ← rb.validTargets e e.targets
      if targets.length > 0 then rb.removeLoop n evs (← res.add (keptEvent e targets))
      else rb.removeLoop n evs res

/-- rotation_builder.py:705-751 `remove_damage_during_downtime` with the assignment of its result at
780 -/
def removeDamageDuringDowntime (rb : RotationBuilder) : Py RotationBuilder := do
  let events ← rb.removeLoop rb.events.q.length rb.events {}
  return { rb with events := events }

/-! ## Auto-attacks -/

/-- rotation_builder.py:794-803: the spec affects speed -/
def hasSpeed (spec : Option StatusEffectSpec) : Bool :=
  match spec with
  | none => false
  | some s => decide (s.autoAttackDelayReduction > 0) || decide (s.hasteTimeReduction > 0) ||
    decide (s.flatCastTimeReduction > 0)

/-- One iteration of rotation_builder.py:788-812 -/
def speedStep (res : List (ℚ × Skill)) (e : Event) : Py (List (ℚ × Skill)) := do
  let buffSpec ← e.skill.getBuffSpec e.modifier
  let debuffSpec ← e.skill.getDebuffSpec e.modifier
  if !hasSpeed buffSpec && !hasSpeed debuffSpec then return res
  else return res ++ [(Events.applicationTime e, e.skill)]

/-- rotation_builder.py:785-814 `__assemble_speed_status_effects_timeline` -/
def speedTimeline (rb : RotationBuilder) : Py (List (ℚ × Skill)) := do
  return sortBy (·.1) (← rb.events.getQ.foldlM speedStep [])

/-- One iteration of rotation_builder.py:827-830 -/
def applicableStep (m : SkillModifier) (targets : List String) (tr : Trackers) (ts : ℚ × Skill) :
    Py Trackers := do
  let se := tr.se.expire ts.1
  let se ← se.add ts.1 ts.2.toSkillCore m targets
  let res ← tr.res.addResource ts.1 ts.2.toSkillCore m
  return { se := se, res := res }

/-- rotation_builder.py:816-838 `__get_applicable_status_effects`: the buffs and debuffs.  The loop
variable `skill` replaces the argument of the same name. -/
def applicableStatusEffects (rb : RotationBuilder) (timeline : List (ℚ × Skill)) (currT : ℚ)
    (skill : Skill) (m : SkillModifier) (targets : List String) :
    Py (StatusEffects × StatusEffects) := do
  let applicable := timeline.filter (fun x => decide (x.1 ≤ currT))
  let (tr, _) ← rb.initTrackers
  let tr ← applicable.foldlM (applicableStep m targets) tr
  let skill := (applicable.map (·.2)).getLast?.getD skill
  let se := tr.se.expire currT
  let ((buffs, _), se) ← se.compileBuffs currT skill.toSkillCore
  let ((debuffs, _), _) ← se.compileDebuffs currT skill.toSkillCore
  let _ ← tr.res.compile currT skill.name
  return (buffs, debuffs)

/-- The state of the loop of `get_no_auto_periods`, rotation_builder.py:841-850 -/
structure NoAutoState where
  tr : Trackers
  combo : ComboTracker
  channel : ChannelingTracker
  casts : List (ℚ × WithTop ℚ)
deriving DecidableEq

/-- The body of the loop, rotation_builder.py:853-890 -/
def noAutoStep (rb : RotationBuilder) (s : NoAutoState) (p : TimedPress) : Py NoAutoState := do
  let channel ← s.channel.process p.t p.skill.toSkillCore p.modifier
  let (buffs, _, m, tr) ← resolveConditions p.t p.skill p.modifier s.tr
  let (condC, combo) ← s.combo.compileAndUpdate p.t p.skill.toSkillCore m
  let m := m.addToCondition condC
  let castTime ← getCastTime rb.stats (← p.skill.getTimingSpec m) m buffs
  let casts := if castTime > 0 then
      s.casts ++ [((p.t : ℚ), (((p.t : ℚ) + castTime : ℚ) : WithTop ℚ))]
    else s.casts
  let se ← tr.se.add p.t p.skill.toSkillCore m [rb.defaultTarget]
  let res ← tr.res.addResource p.t p.skill.toSkillCore m
  return { tr := { se := se, res := res }, combo, channel, casts }

/-- The loop, rotation_builder.py:852-890.  Unlike in `__process_q_timed` the queue is not sorted
first. -/
def noAutoLoop (rb : RotationBuilder) : ℕ → NoAutoState → List TimedPress → Py NoAutoState
  | 0, s, q => if q.length > 0 then .error .outOfFuel else .ok s
  | n + 1, s, q =>
    if q.length > 0 then do
      let (p, q) ← Heapq.heappop TimedPress.pyLt q
      rb.noAutoLoop n (← rb.noAutoStep s p) q
    else .ok s

/-- rotation_builder.py:840-895 `get_no_auto_periods` -/
def getNoAutoPeriods (rb : RotationBuilder) : Py (List (ℚ × WithTop ℚ)) := do
  let (tr, combo) ← rb.initTrackers
  let s ← rb.noAutoLoop rb.qTimed.length { tr, combo, channel := {}, casts := [] } rb.qTimed
  let channel ← s.channel.finalize
  return sortBy (fun w => toLex w) ((← channel.getWindows) ++ s.casts)

/-- rotation_builder.py:898-904 `forward_to_next_non_downtime_time` -/
def forward (rb : RotationBuilder) (t : ℚ) (target : String) : Py ℚ := do
  match (← rb.windowsFor target).find? (fun w => decide (w.start ≤ t ∧ t < w.stop) &&
      (w.damageClass.isNone || decide (w.damageClass = some .auto))) with
  | some w => return w.stop
  | none => return t

/-- rotation_builder.py:906-915 `__get_next_auto_time` -/
def getNextAutoTime (rb : RotationBuilder) (t : ℚ) (periods : List (ℚ × WithTop ℚ))
    (target : String) : Py (WithTop ℚ) := do
  let t ← rb.forward t target
  match periods.filter (fun x => decide (x.1 ≤ t) && decide (x.2 ≥ (t : WithTop ℚ))) with
  | [] => return (t : WithTop ℚ)
  | x :: xs => return xs.foldl (fun m y => max m y.2) x.2

/-- rotation_builder.py:919-927 `shorten_sequence`, the loop: keep the entries whose target differs
from the current one -/
def shortenFrom (curr : String) : List (ℚ × String) → List (ℚ × String)
  | [] => []
  | x :: xs => if x.2 = curr then shortenFrom curr xs else x :: shortenFrom x.2 xs

/-- rotation_builder.py:919-927 `shorten_sequence` -/
def shortenSequence : List (ℚ × String) → Py (List (ℚ × String))
  | [] => .error .indexError
  | x :: xs => .ok (x :: shortenFrom x.2 xs)

/-- The inner loop, rotation_builder.py:953-957 -/
def advanceIndex (ts : List (ℚ × String)) (snapshot : ℚ) (i : ℕ) : ℕ :=
  i + ((ts.drop i).takeWhile (fun x => decide (x.1 ≤ snapshot))).length

/-- rotation_builder.py:949, 998: `auto_skill.timing_spec.application_delay` read directly from the
attribute: neither `None` nor a dictionary has it. -/
def autoDelay (skill : Skill) : Py ℚ :=
  match skill.timingSpec with
  | .single (some ts) => .ok ts.applicationDelay
  | _ => .error .attributeError

/-- rotation_builder.py:961-969: the event of one auto-attack -/
def autoEvent (skill : Skill) (snapshot delay : ℚ) (target : String) : NewEvent :=
  { priority := Utils.transformTimeToPrio snapshot
    primary := snapshot
    secondary := some (snapshot + delay)
    skill := skill
    modifier := {}
    snapshotBuffs := .flag true
    snapshotDebuffs := .flag true
    targets := [target] }

/-- The loop, rotation_builder.py:952-998.  It need not terminate, so the model takes a bound on the
number of iterations; the next time is infinite inside an endless channel. -/
def autosLoop (skill : Skill) (delay : ℚ) (ts : List (ℚ × String)) (last : ℚ) (weaponDelay : ℚ) :
    ℕ → RotationBuilder → WithTop ℚ → ℕ → Py RotationBuilder
  | 0, _, _, _ => .error .outOfFuel
  | n + 1, rb, snapshot, i =>
    match snapshot with
    | ⊤ => .ok rb
    | (t : ℚ) =>
      if t + delay < last then do
        let i := advanceIndex ts t i - 1
        let (_, target) ← pyIdx ts i
        let rb ← rb.addEvent (autoEvent skill t delay target)
        let timeline ← rb.speedTimeline
        let (buffs, debuffs) ← rb.applicableStatusEffects timeline t skill {} [rb.defaultTarget]
        let next := t + (Utils.truncateToDigit (weaponDelay * buffs.autoAttackDelayMult *
          debuffs.autoAttackDelayMult) 2 : ℚ)
        let periods ← rb.getNoAutoPeriods
        let next ← rb.getNextAutoTime next periods target
        autosLoop skill delay ts last weaponDelay n rb next i
      else .ok rb

/-- rotation_builder.py:935-938: the auto-attack skill -/
def autoSkill (rb : RotationBuilder) : Py Skill := do
  if ← rb.lib.hasSkill "Shot" rb.stats.jobClass then rb.lib.getSkill "Shot" rb.stats.jobClass
  else rb.lib.getSkill "Auto" rb.stats.jobClass

/-- rotation_builder.py:918-998 `__add_autos`; `fuel` bounds the number of iterations of the loop. -/
def addAutos (fuel : ℕ) (rb : RotationBuilder) (lastEventTime : Option ℚ) : Py RotationBuilder := do
  let ts ← shortenSequence (sortBy (·.1) rb.timestamps)
  let weaponDelay : ℚ := pyInt (1000 * rb.stats.weaponDelay)
  let skill ← rb.autoSkill
  let traitMult := 1 - rb.stats.processed.traitAutoAttackDelayReduction
  let last := match lastEventTime with
    | none => rb.events.getLastEventTime
    | some l => some l
  match ← rb.events.getFirstDamageTime with
  | none => .error .typeError
  | some first =>
    let delay ← autoDelay skill
    match last with
    | none => .error .typeError
    | some last => autosLoop skill delay ts last (weaponDelay * traitMult) fuel rb first 0

/-! ## `get_skill_timing` -/

/-- rotation_builder.py:756-783 `get_skill_timing`: the timeline is the attribute `events` of the
result; `fuel` bounds the number of auto-attacks. -/
def getSkillTiming (fuel : ℕ) (rb : RotationBuilder) : Py RotationBuilder := do
  let rb := rb.processDowntimeWindows
  let rb := { rb with events := {}, presses := [] }
  let rb ← rb.processQSequence
  let rb ← rb.processQTimed
  let last := if rb.ignoreTrailingDots then rb.events.getLastEventTime else none
  let rb ← rb.processAllDots last
  let rb ← if rb.enableAutos then rb.addAutos fuel last else pure rb
  let rb ← if rb.fightStart.isNone then rb.shiftTimelines else pure rb
  let rb ← rb.removeDamageDuringDowntime
  return { rb with presses := sortBy (·.t) rb.presses }

end RotationBuilder

end Ama
