import Verif.Model.Events
import Verif.Model.Positional
import Verif.Model.SkillLibrary
import Verif.Model.Stats
import Verif.Model.StatusEffectTracker
import Verif.Model.JobResourceTracker
import Verif.Model.ComboTracker

/-!
# Model of `simulator/timeline_builders/damage_builder.py`

The printed `ValueError` at lines 87-88 and 166-167 is dropped (see `Utils.addPositional`).
-/

namespace Ama

/-- An element of the result, damage_builder.py:122-129: the tuple `(application_time, skill,
skill_modifier, (buffs, debuffs), event_id, target)`. -/
structure DamageInstance where
  time : ℚ
  skill : Skill
  modifier : SkillModifier
  buffs : StatusEffects
  debuffs : StatusEffects
  eventId : ℕ
  target : String
deriving DecidableEq

/-- The comparison of these tuples in the heap: the first different component decides.  `<` between
skill modifiers is always false (their dataclass has no fields, skill_modifier.py:9-10), and
`StatusEffects` has no `<` (status_effects.py:6), so that comparing the inner tuples raises. -/
def DamageInstance.pyLt (a b : DamageInstance) : Py Bool :=
  if a.time ≠ b.time then .ok (decide (a.time < b.time))
  else if a.skill ≠ b.skill then Skill.pyLt a.skill b.skill
  else if !a.modifier.pyEq b.modifier then .ok false
  else if !a.buffs.pyEq b.buffs then .error .typeError
  else if !a.debuffs.pyEq b.debuffs then .error .typeError
  else if a.eventId ≠ b.eventId then .ok (decide (a.eventId < b.eventId))
  else .ok (decide (a.target < b.target))

/-- damage_builder.py:20-33: the attributes of a builder that change.  `__status_effect_priority` is
part of `se`. -/
structure DamageBuilder where
  se : StatusEffectTracker
  res : JobResourceTracker
  combo : ComboTracker
deriving DecidableEq

/-- The state of the loop, damage_builder.py:43-44: the trackers, the timeline and the heap `q`. -/
structure DamageState where
  db : DamageBuilder
  events : Events
  q : List DamageInstance := []
deriving DecidableEq

namespace DamageBuilder

/-- damage_builder.py:20-33 `__init__` -/
def init (stats : Stats) (lib : SkillLibrary) : Py DamageBuilder := do
  let priority ← lib.getStatusEffectPriority stats.jobClass
  let settings ← lib.getAllResourceSettings stats.jobClass
  let breakers ← lib.getAllComboBreakers stats.jobClass
  return { se := { priority := priority }, res := JobResourceTracker.init settings,
           combo := { comboBreakers := breakers } }

/-- damage_builder.py:65-71 and 148-153: gauges -/
def addGauges (db : DamageBuilder) (t : ℚ) (skill : Skill) (m : SkillModifier) :
    Py (SkillModifier × DamageBuilder) := do
  let (cond, res) ← db.res.compile t skill.name
  return (m.addToCondition cond, { db with res := res })

/-- damage_builder.py:73-76 and 170-173: gauge changes of the skill -/
def changeGauges (db : DamageBuilder) (t : ℚ) (skill : Skill) (m : SkillModifier) :
    Py DamageBuilder := do
  return { db with res := ← db.res.addResource t skill.toSkillCore m }

/-- damage_builder.py:78-88 and 157-167: combo and positional -/
def addCombo (db : DamageBuilder) (t : ℚ) (skill : Skill) (m : SkillModifier) :
    Py (SkillModifier × DamageBuilder) := do
  let (cond, combo) ← db.combo.compileAndUpdate t skill.toSkillCore m
  let m ← Utils.addPositional skill (m.addToCondition cond)
  return (m, { db with combo := combo })

/-- damage_builder.py:91-94 and 133-136: the buffs in effect -/
def takeBuffs (db : DamageBuilder) (t : ℚ) (skill : Skill) (m : SkillModifier) :
    Py (StatusEffects × SkillModifier × DamageBuilder) := do
  let ((buffs, cond), se) ← db.se.compileBuffs t skill.toSkillCore
  return (buffs, m.addToCondition cond, { db with se := se })

/-- damage_builder.py:112-117 and 192-197: the debuffs in effect on the target -/
def takeDebuffs (db : DamageBuilder) (t : ℚ) (skill : Skill) (m : SkillModifier) (target : String) :
    Py (StatusEffects × SkillModifier × DamageBuilder) := do
  let ((debuffs, cond), se) ← db.se.compileDebuffs t skill.toSkillCore target
  return (debuffs, m.addToCondition cond, { db with se := se })

/-- damage_builder.py:64-71 and 146-154: gauges, if they still have to be checked -/
def gaugesIf (c : Bool) (db : DamageBuilder) (t : ℚ) (skill : Skill) (m : SkillModifier) :
    Py (SkillModifier × DamageBuilder) :=
  if c then db.addGauges t skill m else .ok (m, db)

/-- damage_builder.py:73-76 and 170-173: gauge changes, if they have not been made yet -/
def changeIf (c : Bool) (db : DamageBuilder) (t : ℚ) (skill : Skill) (m : SkillModifier) :
    Py DamageBuilder :=
  if c then db.changeGauges t skill m else .ok db

/-- damage_builder.py:78-88 and 156-168: combo and positional, if they still have to be checked -/
def comboIf (c : Bool) (db : DamageBuilder) (t : ℚ) (skill : Skill) (m : SkillModifier) :
    Py (SkillModifier × DamageBuilder) :=
  if c then db.addCombo t skill m else .ok (m, db)

/-- damage_builder.py:90-94: at application time, the buffs of the snapshot or those in effect -/
def finalBuffs (status : SnapStatus) (db : DamageBuilder) (t : ℚ) (skill : Skill)
    (m : SkillModifier) : Py (StatusEffects × SkillModifier × DamageBuilder) :=
  match status with
  | .done b => .ok (b, m, db)
  | .flag _ => db.takeBuffs t skill m

/-- damage_builder.py:111-117: likewise for debuffs -/
def finalDebuffs (status : SnapStatus) (db : DamageBuilder) (t : ℚ) (skill : Skill)
    (m : SkillModifier) (target : String) : Py (StatusEffects × SkillModifier × DamageBuilder) :=
  match status with
  | .done d => .ok (d, m, db)
  | .flag _ => db.takeDebuffs t skill m target

/-- damage_builder.py:132-136: the snapshot of the buffs, if there is one -/
def snapBuffs (status : SnapStatus) (db : DamageBuilder) (t : ℚ) (skill : Skill)
    (m : SkillModifier) : Py (SnapStatus × SkillModifier × DamageBuilder) :=
  match status with
  | .flag true => do
    let (b, m, db) ← db.takeBuffs t skill m
    return (.done b, m, db)
  | other => .ok (other, m, db)

/-- damage_builder.py:191-197: likewise for debuffs -/
def snapDebuffs (status : SnapStatus) (db : DamageBuilder) (t : ℚ) (skill : Skill)
    (m : SkillModifier) (target : String) : Py (SnapStatus × SkillModifier × DamageBuilder) :=
  match status with
  | .flag true => do
    let (d, m, db) ← db.takeDebuffs t skill m target
    return (.done d, m, db)
  | other => .ok (other, m, db)

/-- damage_builder.py:98-99 and 177-178: the condition for the `i`-th of `n` targets -/
def targetModifier (n i : ℕ) (m : SkillModifier) : SkillModifier :=
  if n > 1 then m.addToCondition ("Target " ++ toString (i + 1)) else m

/-- damage_builder.py:102-109 and 181-189: when the `i`-th of `n` targets is hit -/
def targetTime (n i : ℕ) (t : ℚ) : ℚ :=
  if n > 1 then t + i * GameConsts.MULTI_TARGET_DELAY_PER_TARGET else t

/-- damage_builder.py:119-130: the instance is recorded if it does damage -/
def pushInstance (q : List DamageInstance) (i : DamageInstance) : Py (List DamageInstance) := do
  match ← i.skill.getDamageSpec i.modifier with
  | none => return q
  | some _ => Heapq.heappush DamageInstance.pyLt q i

/-- The body of the loop over targets at application time, damage_builder.py:96-130.  With a single
target `skill_modifier_to_use` is `skill_modifier`, so that conditions of debuffs are also in effect
after the loop. -/
def applyTarget (e : Event) (buffs : StatusEffects) (acc : DamageState × SkillModifier)
    (ti : String × ℕ) : Py (DamageState × SkillModifier) := do
  let (s, m) := acc
  let n := e.targets.length
  let mUse := targetModifier n ti.2 m
  let (debuffs, mUse, db) ← finalDebuffs e.snapshotDebuffs s.db e.primary e.skill mUse ti.1
  let q ← pushInstance s.q
    { time := targetTime n ti.2 e.primary, skill := e.skill, modifier := mUse, buffs := buffs,
      debuffs := debuffs, eventId := e.eventId, target := ti.1 }
  return ({ s with db := db, q := q }, if n > 1 then m else mUse)

/-- damage_builder.py:63-130 and 213-214: an event at application time -/
def applyEvent (s : DamageState) (e : Event) : Py DamageState := do
  let t := e.primary
  let (m, db) ← gaugesIf (!e.jobConditionalProcessed) s.db t e.skill e.modifier
  let db ← changeIf (!e.jobResourcesAdded) db t e.skill m
  let (m, db) ← comboIf (!e.comboConditionalProcessed) db t e.skill m
  let (buffs, m, db) ← finalBuffs e.snapshotBuffs db t e.skill m
  let (s, m) ← e.targets.zipIdx.foldlM (applyTarget e buffs) ({ s with db := db }, m)
  let se ← s.db.se.add t e.skill.toSkillCore m e.targets
  return { s with db := { s.db with se := se } }

/-- The body of the loop over targets at snapshot time, damage_builder.py:175-210 -/
def snapshotTarget (e : Event) (secondary : ℚ) (newPriority : ℤ) (buffs : SnapStatus)
    (jobProcessed comboProcessed : Bool) (acc : DamageState × SkillModifier) (ti : String × ℕ) :
    Py (DamageState × SkillModifier) := do
  let (s, m) := acc
  let n := e.targets.length
  let mUse := targetModifier n ti.2 m
  let (debuffs, mUse, db) ← snapDebuffs e.snapshotDebuffs s.db e.primary e.skill mUse ti.1
  let events ← s.events.add
    { priority := newPriority, primary := targetTime n ti.2 secondary, secondary := none,
      skill := e.skill, modifier := mUse, snapshotBuffs := buffs, snapshotDebuffs := debuffs,
      eventId := some e.eventId, jobResourcesAdded := true, jobConditionalProcessed := jobProcessed,
      comboConditionalProcessed := comboProcessed, targets := [ti.1] }
  return ({ s with db := db, events := events }, if n > 1 then m else mUse)

/-- damage_builder.py:132-210: an event at snapshot time -/
def snapshotEvent (s : DamageState) (e : Event) (secondary : ℚ) : Py DamageState := do
  let t := e.primary
  let (buffs, m, db) ← snapBuffs e.snapshotBuffs s.db t e.skill e.modifier
  let priorityModifier := Utils.transformTimeToPrio e.primary - e.priority
  let newPriority := Utils.transformTimeToPrio secondary + priorityModifier
  let jobProcessed := !e.jobConditionalProcessed && e.skill.jobResourcesSnapshot
  let (m, db) ← gaugesIf jobProcessed db t e.skill m
  let comboProcessed := !e.comboConditionalProcessed
  let (m, db) ← comboIf comboProcessed db t e.skill m
  let db ← changeIf (!e.jobResourcesAdded) db t e.skill m
  let (s, _) ← e.targets.zipIdx.foldlM
    (snapshotTarget e secondary newPriority buffs jobProcessed comboProcessed) ({ s with db := db }, m)
  return s

/-- The body of the loop, damage_builder.py:59-214 -/
def processEvent (s : DamageState) (e : Event) : Py DamageState :=
  let s := { s with db := { s.db with se := s.db.se.expire e.primary } }
  match e.secondary with
  | none => applyEvent s e
  | some secondary => snapshotEvent s e secondary

/-- The loop, damage_builder.py:44-214.  The number of iterations is bounded by the first argument. -/
def loop : ℕ → DamageState → Py DamageState
  | 0, s => if s.events.isEmpty then .ok s else .error .outOfFuel
  | n + 1, s =>
    if s.events.isEmpty then .ok s
    else do
      let (e, events) ← s.events.getNext
      loop n (← processEvent { s with events := events } e)

/-- A bound on the number of iterations caused by an event: itself, and its application on each target
if it has a separate snapshot.  (`C40` shows that it suffices.) -/
def work (e : Event) : ℕ := if e.secondary.isSome then 1 + e.targets.length else 1

/-- damage_builder.py:40-217 `get_damage_instances`; the timeline is empty afterwards. -/
def getDamageInstances (db : DamageBuilder) (events : Events) :
    Py (List DamageInstance × DamageBuilder) := do
  let s ← loop (events.q.map work).sum { db := db, events := events }
  return (sortBy (·.time) s.q, s.db)

end DamageBuilder

end Ama
