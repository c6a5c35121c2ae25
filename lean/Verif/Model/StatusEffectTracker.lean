import Verif.Model.Skill

/-!
# Model of `simulator/trackers/status_effect_tracker.py`

Warnings that are only printed (lines 73-82) are dropped.
-/

namespace Ama

/-- One entry of the dictionaries of active effects: the tuple
`(start_time, end_time, num_uses, spec)`, simulator/trackers/status_effect_tracker.py:42-47 -/
structure ActiveEffect where
  start : ℚ
  endT : WithTop ℚ
  uses : WithTop ℤ
  spec : StatusEffectSpec
deriving DecidableEq

/-- A dictionary from effect (skill) name to active effect. -/
abbrev Effects := Dict String ActiveEffect

/-- simulator/trackers/status_effect_tracker.py:8-11 -/
structure StatusEffectTracker where
  buffs : Effects := []
  debuffs : Dict String Effects := []
  priority : List String := []
deriving DecidableEq

/-- `a - b` for a possibly infinite `a`. -/
def subTime (a : WithTop ℚ) (b : ℚ) : WithTop ℚ := a.map (fun x => x - b)

/-- `num_uses - 1` for a possibly infinite number. -/
def decUses (n : WithTop ℤ) : WithTop ℤ := n.map (fun x => x - 1)

namespace StatusEffectTracker

/-- simulator/trackers/status_effect_tracker.py:13-16 `__get_debuffs`: the dictionary of a target,
empty for an unknown target. -/
def lookupDebuffs (tr : StatusEffectTracker) (target : String) : Effects :=
  (Dict.get? tr.debuffs target).getD []

/-- simulator/trackers/status_effect_tracker.py:13-16 `__get_debuffs`, the side effect of creating an
empty dictionary for an unknown target, followed by a mutation of that dictionary. -/
def setDebuffs (tr : StatusEffectTracker) (target : String) (e : Effects) : StatusEffectTracker :=
  { tr with debuffs := Dict.set tr.debuffs target e }

/-- simulator/trackers/status_effect_tracker.py:19-24 `__expire_status_effects`: deleting in a loop
over a copy of the keys keeps exactly the entries failing the test, in order. -/
def expireEffects (t : ℚ) (es : Effects) : Effects :=
  es.filter (fun kv => !(decide ((t : WithTop ℚ) > kv.2.endT) || decide (kv.2.uses = 0)))

/-- simulator/trackers/status_effect_tracker.py:26-29 `expire_status_effects` -/
def expire (tr : StatusEffectTracker) (t : ℚ) : StatusEffectTracker :=
  { tr with
    buffs := expireEffects t tr.buffs
    debuffs := tr.debuffs.map (fun kv => (kv.1, expireEffects t kv.2)) }

/-- simulator/trackers/status_effect_tracker.py:32-71 `__add_to_status_effects` -/
def addEffect (es : Effects) (startTime : ℚ) (skillName : String) (spec : StatusEffectSpec) :
    Effects :=
  match Dict.get? es skillName with
  | none =>
    if spec.extendOnly then es
    else Dict.set es skillName
      { start := startTime, endT := (startTime : WithTop ℚ) + spec.duration, uses := spec.numUses,
        spec := spec }
  | some prev =>
    let timeLeft := max (subTime prev.endT startTime) 0
    let newDuration :=
      if spec.extendsExistingDuration then min spec.maxDuration (timeLeft + spec.duration)
      else timeLeft
    let newNumUses := min (prev.uses + spec.numUses) spec.maxNumUses
    Dict.set es skillName
      { start := prev.start, endT := (startTime : WithTop ℚ) + newDuration, uses := newNumUses,
        spec := spec }

/-- The body shared by the two branches of `__expire_named_effect`,
simulator/trackers/status_effect_tracker.py:87-96 and 97-106 -/
def endEffect (es : Effects) (name : String) (t : ℚ) : Effects :=
  match Dict.get? es name with
  | none => es
  | some e => Dict.set es name { e with endT := (t : WithTop ℚ) }

/-- simulator/trackers/status_effect_tracker.py:84-106 `__expire_named_effect` -/
def expireNamed (tr : StatusEffectTracker) (name : String) (t : ℚ)
    (target : String := SimConsts.DEFAULT_TARGET) : StatusEffectTracker :=
  let tr := { tr with buffs := endEffect tr.buffs name t }
  tr.setDebuffs target (endEffect (tr.lookupDebuffs target) name t)

/-- simulator/trackers/status_effect_tracker.py:114-119: the buff part of
`add_to_status_effects`. -/
def addBuff (tr : StatusEffectTracker) (t : ℚ) (skillName : String) (spec : StatusEffectSpec) :
    StatusEffectTracker :=
  let tr := if spec.clearAllStatusEffects then { tr with buffs := [] } else tr
  let tr := { tr with buffs := addEffect tr.buffs t skillName spec }
  spec.expiresStatusEffects.foldl (fun tr name => expireNamed tr name t) tr

/-- simulator/trackers/status_effect_tracker.py:123-127: one iteration of the debuff part of
`add_to_status_effects`. -/
def addDebuff (tr : StatusEffectTracker) (t : ℚ) (skillName : String) (spec : StatusEffectSpec)
    (target : String) : StatusEffectTracker :=
  let tr := tr.setDebuffs target (addEffect (tr.lookupDebuffs target) t skillName spec)
  spec.expiresStatusEffects.foldl (fun tr name => expireNamed tr name t target) tr

/-- simulator/trackers/status_effect_tracker.py:108-127 `add_to_status_effects` -/
def add (tr : StatusEffectTracker) (t : ℚ) (skill : SkillCore) (m : SkillModifier)
    (targets : List String := [SimConsts.DEFAULT_TARGET]) : Py StatusEffectTracker := do
  let buffSpec ← skill.getBuffSpec m
  let debuffSpec ← skill.getDebuffSpec m
  let tr := match buffSpec with
    | none => tr
    | some spec => tr.addBuff t skill.name spec
  return match debuffSpec with
    | none => tr
    | some spec => targets.foldl (fun tr target => tr.addDebuff t skill.name spec target) tr

/-- simulator/trackers/status_effect_tracker.py:130-148 `__get_valid_status_effects` -/
def validNames (currT : ℚ) (es : Effects) (denylist : List String) (skillName : String) :
    List String :=
  (es.filter (fun kv =>
    if currT < kv.2.start then false
    else if kv.1 ∈ denylist then false
    else match kv.2.spec.skillAllowlist with
      | some al => if skillName ∈ al then true else false
      | none => true)).map Prod.fst

/-- simulator/trackers/status_effect_tracker.py:150-164 `__delete_lower_priority_status_effects`: the
first name of the priority list that is valid causes one occurrence of every later name of the list to
be deleted. -/
def deleteLowerPriority : List String → List String → List String
  | [], valid => valid
  | p :: ps, valid => if p ∈ valid then ps.foldl List.erase valid else deleteLowerPriority ps valid

/-- Accumulator of the loop at simulator/trackers/status_effect_tracker.py:169-180: the aggregate so
far and the list of conditions to add. -/
structure CompileAcc where
  agg : StatusEffects := {}
  conds : List String := []
deriving DecidableEq

/-- simulator/trackers/status_effect_tracker.py:199-221: fold one effect into the aggregate. -/
def accEffect (acc : CompileAcc) (name : String) (spec : StatusEffectSpec) : Py CompileAcc := do
  let a := acc.agg
  if spec.guaranteedCrit ≠ .default then
    pyAssert (decide (a.guaranteedCrit = .default))
  if spec.guaranteedDh ≠ .default then
    pyAssert (decide (a.guaranteedDh = .default))
  return {
    agg := {
      critRateAdd := a.critRateAdd + spec.critRateAdd
      dhRateAdd := a.dhRateAdd + spec.dhRateAdd
      damageMult := a.damageMult * spec.damageMult
      mainStatMult := a.mainStatMult * spec.mainStatMult
      mainStatAdd := a.mainStatAdd + spec.mainStatAdd
      autoAttackDelayMult := a.autoAttackDelayMult * (1 - spec.autoAttackDelayReduction)
      hasteTimeMult := a.hasteTimeMult * (1 - spec.hasteTimeReduction)
      flatCastTimeReduction := a.flatCastTimeReduction + spec.flatCastTimeReduction
      flatGcdRecastTimeReduction := a.flatGcdRecastTimeReduction + spec.flatGcdRecastTimeReduction
      guaranteedCrit := if spec.guaranteedCrit ≠ .default then spec.guaranteedCrit
        else a.guaranteedCrit
      guaranteedDh := if spec.guaranteedDh ≠ .default then spec.guaranteedDh else a.guaranteedDh
      statusEffects := a.statusEffects }
    conds := if spec.addToSkillModifierCondition then acc.conds ++ [name] else acc.conds }

/-- simulator/trackers/status_effect_tracker.py:189-221: one iteration of the loop; the entry loses
one use. -/
def compileStep (st : Effects × CompileAcc) (name : String) : Py (Effects × CompileAcc) := do
  let e ← Dict.get st.1 name
  let es := Dict.set st.1 name { e with uses := decUses e.uses }
  let acc ← accEffect st.2 name e.spec
  return (es, acc)

/-- simulator/trackers/status_effect_tracker.py:166-237 `__compile_status_effects`: the aggregate, the
joined condition names, and the updated dictionary. -/
def compileEffects (priority : List String) (currT : ℚ) (es : Effects) (denylist : List String)
    (skillName : String) : Py (StatusEffects × String × Effects) := do
  let names := deleteLowerPriority priority (validNames currT es denylist skillName)
  let (es', acc) ← names.foldlM compileStep (es, {})
  return ({ acc.agg with statusEffects := names }, strJoin ", " acc.conds, es')

/-- simulator/trackers/status_effect_tracker.py:239-243 `compile_buffs` -/
def compileBuffs (tr : StatusEffectTracker) (t : ℚ) (skill : SkillCore) :
    Py ((StatusEffects × String) × StatusEffectTracker) := do
  let (agg, cond, es) ← compileEffects tr.priority t tr.buffs skill.statusEffectDenylist skill.name
  return ((agg, cond), { tr with buffs := es })

/-- simulator/trackers/status_effect_tracker.py:245-249 `compile_debuffs` -/
def compileDebuffs (tr : StatusEffectTracker) (t : ℚ) (skill : SkillCore)
    (target : String := SimConsts.DEFAULT_TARGET) :
    Py ((StatusEffects × String) × StatusEffectTracker) := do
  let (agg, cond, es) ← compileEffects tr.priority t (tr.lookupDebuffs target)
    skill.statusEffectDenylist skill.name
  return ((agg, cond), tr.setDebuffs target es)

end StatusEffectTracker

end Ama
