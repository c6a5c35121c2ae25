import Verif.Model.Specs

/-!
# Model of `simulator/skills/skill.py`, `skills/skill_modifier.py` and `specs/follow_up.py`
-/

namespace Ama

/-! ## `SkillModifier` -/

/-- simulator/skills/skill_modifier.py:10-28.  `with_condition` is the canonicalised set;
`original_with_condition` (line 24) is never read by the modelled code and dropped. -/
structure SkillModifier where
  withCondition : Conds := ∅
  guaranteedCrit : Forced := .default
  guaranteedDh : Forced := .default
  forceCombo : Bool := false
  ignoreCastTimes : Bool := false
  ignoreApplicationDelay : Bool := false
  bonusPercent : Option ℚ := none
deriving DecidableEq

namespace SkillModifier

/-- `SkillModifier(with_condition=...)`, simulator/skills/skill_modifier.py:11-28 -/
def make (withCondition : String := SimConsts.DEFAULT_CONDITION)
    (guaranteedCrit guaranteedDh : Forced := .default)
    (forceCombo ignoreCastTimes ignoreApplicationDelay : Bool := false)
    (bonusPercent : Option ℚ := none) : SkillModifier :=
  { withCondition := Utils.canonicalizeCondition withCondition, guaranteedCrit, guaranteedDh,
    forceCombo, ignoreCastTimes, ignoreApplicationDelay, bonusPercent }

/-- simulator/skills/skill_modifier.py:32-34 `remove_from_condition` -/
def removeFromCondition (m : SkillModifier) (c : String) : SkillModifier :=
  { m with withCondition := m.withCondition.erase c }

/-- simulator/skills/skill_modifier.py:36-43 `add_to_condition` with a string argument -/
def addToCondition (m : SkillModifier) (c : String) : SkillModifier :=
  if c.toList.length = 0 then m
  else { m with withCondition := m.withCondition ∪ Utils.canonicalizeCondition c }

/-- `m.add_to_condition(sep.join(s))` for a Python set `s` of canonical conditions.  The iteration
order of `s` is not determined by Python, but by `Ama.addToCondition_join` (property C01) the result
does not depend on it: it is the union (the set `{""}` joins to the empty string, for which
`add_to_condition` does nothing). -/
def addConditions (m : SkillModifier) (s : Conds) : SkillModifier :=
  if s = {""} then m else { m with withCondition := m.withCondition ∪ s }

/-- simulator/skills/skill_modifier.py:45-50 `__eq__` -/
def pyEq (a b : SkillModifier) : Bool :=
  decide (a.guaranteedCrit = b.guaranteedCrit) && decide (a.guaranteedDh = b.guaranteedDh) &&
  decide (a.withCondition = b.withCondition)

end SkillModifier

/-! ## Conditional specifications -/

/-- A specification field of a skill: either one value, or a dictionary from (canonicalised) sets of
conditions to values. -/
inductive Cond (α : Type)
  | single (a : α)
  | dict (d : Dict Conds α)
deriving DecidableEq

/-- The same as passed by a user: dictionary keys are condition strings. -/
inductive RawCond (α : Type)
  | single (a : α)
  | dict (d : Dict String α)
deriving DecidableEq

namespace Cond

/-- The common body of `get_damage_spec`, `get_timing_spec`, `get_buff_spec`, `get_debuff_spec`
(simulator/skills/skill.py:266-297): `None` or a single spec is returned as is, a dictionary is
searched with `get_best_key`, and a missing key raises `KeyError`. -/
def lookup {α : Type} (c : Cond α) (withCondition : Conds) : Py α :=
  match c with
  | .single a => .ok a
  | .dict d => do
    let key ← Utils.getBestKey (Dict.keys d) withCondition
    Dict.get d key

/-- The common body of `get_combo_spec`, `get_job_resource_spec`, `get_follow_up_skills`
(simulator/skills/skill.py:240-264): values are tuples; an empty dictionary is returned as is, and
all callers only iterate over it. -/
def lookupTuple {α : Type} (c : Cond (List α)) (withCondition : Conds) : Py (List α) :=
  match c with
  | .single a => .ok a
  | .dict [] => .ok []
  | .dict d => do
    let key ← Utils.getBestKey (Dict.keys d) withCondition
    Dict.get d key

end Cond

/-! ## `Skill` -/

/-- simulator/skills/skill.py:18-45 without `follow_up_skills`, after `__post_init__`.
`channeling_spec` keeps its string keys because `__post_init__` (162-229) does not canonicalise it.
The derived attributes `has_buff`, ... are in `Verif.Model.SkillFlags`. -/
structure SkillCore where
  name : String
  damageSpec : Cond (Option DamageSpec) := .single none
  timingSpec : Cond (Option TimingSpec) := .single none
  buffSpec : Cond (Option StatusEffectSpec) := .single none
  debuffSpec : Cond (Option StatusEffectSpec) := .single none
  channelingSpec : RawCond (Option ChannelingSpec) := .single none
  jobResourceSpec : Cond (List JobResourceSpec) := .single []
  comboSpec : Cond (List ComboSpec) := .single []
  statusEffectDenylist : List String := []
  isGCD : Option Bool := none
  ignoredConditionsForBonusPotency : List String := []
  jobResourcesSnapshot : Bool := true
  hasAoe : Bool := false
  aoeDropoff : Option ℚ := none
  offClassDefaultCondition : String := SimConsts.DEFAULT_CONDITION
deriving DecidableEq

/-- simulator/specs/follow_up.py:6-12.  The assertions of `__post_init__` (14-23) make the delay a
natural number.  Simplification: the follow-ups of a follow-up skill are not represented.  The code
reads them only in `get_positional_condition` (utils.py:77-86), and for the events of a follow-up,
whose modifiers have no bonus percentage, the result of that function adds nothing new. -/
structure FollowUp where
  skill : SkillCore
  delayAfterParentApplication : ℕ
  snapshotBuffsWithParent : Bool := true
  snapshotDebuffsWithParent : Bool := true
  dotDuration : Option ℤ := none
  primaryTargetOnly : Bool := true
deriving DecidableEq

/-- simulator/skills/skill.py:18-45, after `__post_init__`. -/
structure Skill extends SkillCore where
  followUpSkills : Cond (List FollowUp) := .single []
deriving DecidableEq

/-- The skill of a follow-up seen as a skill (see `FollowUp`). -/
def SkillCore.toSkill (s : SkillCore) : Skill := { s with }

namespace SkillCore

/-- simulator/skills/skill.py:290-297 -/
def getDamageSpec (s : SkillCore) (m : SkillModifier) : Py (Option DamageSpec) :=
  s.damageSpec.lookup m.withCondition

/-- simulator/skills/skill.py:282-288 -/
def getTimingSpec (s : SkillCore) (m : SkillModifier) : Py (Option TimingSpec) :=
  s.timingSpec.lookup m.withCondition

/-- simulator/skills/skill.py:266-272 -/
def getBuffSpec (s : SkillCore) (m : SkillModifier) : Py (Option StatusEffectSpec) :=
  s.buffSpec.lookup m.withCondition

/-- simulator/skills/skill.py:274-280 -/
def getDebuffSpec (s : SkillCore) (m : SkillModifier) : Py (Option StatusEffectSpec) :=
  s.debuffSpec.lookup m.withCondition

/-- simulator/skills/skill.py:240-246 -/
def getComboSpec (s : SkillCore) (m : SkillModifier) : Py (List ComboSpec) :=
  s.comboSpec.lookupTuple m.withCondition

/-- simulator/skills/skill.py:248-256 -/
def getJobResourceSpec (s : SkillCore) (m : SkillModifier) : Py (List JobResourceSpec) :=
  s.jobResourceSpec.lookupTuple m.withCondition

/-- simulator/skills/skill.py:299-305.  The keys of a `channeling_spec` dictionary are still strings,
so `key.issubset` in `get_best_key` (utils.py:53) raises `AttributeError` on the first key; with no
key at all the lookup of the default key raises `KeyError`. -/
def getChannelingSpec (s : SkillCore) (_m : SkillModifier) : Py (Option ChannelingSpec) :=
  match s.channelingSpec with
  | .single a => .ok a
  | .dict [] => .error .keyError
  | .dict (_ :: _) => .error .attributeError

end SkillCore

/-- simulator/skills/skill.py:258-264 -/
def Skill.getFollowUpSkills (s : Skill) (m : SkillModifier) : Py (List FollowUp) :=
  s.followUpSkills.lookupTuple m.withCondition

/-! ## Construction (`__post_init__`) -/

/-- simulator/skills/skill.py:47-52 `__canonicalize_dict`: later keys with the same canonical form
overwrite earlier ones. -/
def canonicalizeDict {α : Type} (d : Dict String α) : Dict Conds α :=
  d.foldl (fun tmp kv => Dict.set tmp (Utils.canonicalizeCondition kv.1) kv.2) []

/-- simulator/skills/skill.py:199-226: dictionaries are canonicalised, other values kept. -/
def RawCond.canonicalize {α : Type} : RawCond α → Cond α
  | .single a => .single a
  | .dict d => .dict (canonicalizeDict d)

/-- The key built at simulator/skills/skill.py:62-65 -/
def dropoffKey (key : String) (targetNum : ℕ) : String :=
  if key.toList.length > 0 then
    String.ofList (key.toList ++ ", Target ".toList ++ (toString targetNum).toList)
  else String.ofList ("Target ".toList ++ (toString targetNum).toList)

/-- One iteration of the inner loop, simulator/skills/skill.py:61-71; a `None` value has no
`potency` attribute. -/
def dropoffStep (dropoff : ℚ) (key : String) (d : Dict String (Option DamageSpec)) (targetNum : ℕ) :
    Py (Dict String (Option DamageSpec)) := do
  match ← Dict.get d key with
  | none => .error .attributeError
  | some spec =>
    return Dict.set d (dropoffKey key targetNum)
      (some { spec with potency := (1 - dropoff) * spec.potency })

/-- simulator/skills/skill.py:56-72 `__process_aoe_dropoff` for a dictionary. The target numbers are
`range(2, 10)`. -/
def processAoeDropoffDict (dropoff : ℚ) (d : Dict String (Option DamageSpec)) :
    Py (Dict String (Option DamageSpec)) :=
  (Dict.keys d).foldlM
    (fun d key => [2, 3, 4, 5, 6, 7, 8, 9].foldlM (dropoffStep dropoff key) d) d

/-- simulator/skills/skill.py:192-193: the call in `__post_init__`.  For a non-dictionary the
function builds a new dictionary and the caller drops it, so the spec is unchanged; a `None` spec has
no `potency` and raises. -/
def processAoeDropoff (dropoff : Option ℚ) (spec : RawCond (Option DamageSpec)) :
    Py (RawCond (Option DamageSpec)) :=
  match dropoff with
  | none => .ok spec
  | some x =>
    match spec with
    | .single none => .error .attributeError
    | .single (some s) => .ok (.single (some s))
    | .dict d => do return .dict (← processAoeDropoffDict x d)

/-- The arguments of the `Skill` constructor, simulator/skills/skill.py:21-45. -/
structure RawSkill where
  name : String
  damageSpec : RawCond (Option DamageSpec) := .single none
  timingSpec : RawCond (Option TimingSpec) := .single none
  buffSpec : RawCond (Option StatusEffectSpec) := .single none
  debuffSpec : RawCond (Option StatusEffectSpec) := .single none
  channelingSpec : RawCond (Option ChannelingSpec) := .single none
  jobResourceSpec : RawCond (List JobResourceSpec) := .single []
  comboSpec : RawCond (List ComboSpec) := .single []
  statusEffectDenylist : List String := []
  isGCD : Option Bool := none
  ignoredConditionsForBonusPotency : List String := []
  jobResourcesSnapshot : Bool := true
  followUpSkills : RawCond (List FollowUp) := .single []
  hasAoe : Bool := false
  aoeDropoff : Option ℚ := none
  offClassDefaultCondition : String := SimConsts.DEFAULT_CONDITION
deriving DecidableEq

/-- `Skill(...)`: simulator/skills/skill.py:162-226 `__post_init__` (the flags set at 228-229 are in
`Verif.Model.SkillFlags`). -/
def mkSkill (r : RawSkill) : Py Skill := do
  let damageSpec ← processAoeDropoff r.aoeDropoff r.damageSpec
  return {
    name := r.name
    damageSpec := damageSpec.canonicalize
    timingSpec := r.timingSpec.canonicalize
    buffSpec := r.buffSpec.canonicalize
    debuffSpec := r.debuffSpec.canonicalize
    channelingSpec := r.channelingSpec
    jobResourceSpec := r.jobResourceSpec.canonicalize
    comboSpec := r.comboSpec.canonicalize
    statusEffectDenylist := r.statusEffectDenylist
    isGCD := r.isGCD
    ignoredConditionsForBonusPotency := r.ignoredConditionsForBonusPotency
    jobResourcesSnapshot := r.jobResourcesSnapshot
    followUpSkills := r.followUpSkills.canonicalize
    hasAoe := r.hasAoe
    aoeDropoff := r.aoeDropoff
    offClassDefaultCondition := r.offClassDefaultCondition }

/-! ## Python's `<` on skills (dataclass order) -/

/-- `a < b` for different tuples of unorderable items: a proper prefix is smaller, otherwise the
first differing items are compared and raise `TypeError`. -/
def tupleLt {α : Type} [DecidableEq α] : List α → List α → Py Bool
  | [], [] => .ok false
  | [], _ :: _ => .ok true
  | _ :: _, [] => .ok false
  | a :: as, b :: bs => if a = b then tupleLt as bs else .error .typeError

/-- `a < b` for `Cond` fields holding tuples: dictionaries are unorderable. -/
def Cond.tupleLt {α : Type} [DecidableEq α] : Cond (List α) → Cond (List α) → Py Bool
  | .single a, .single b => Ama.tupleLt a b
  | _, _ => .error .typeError

/-- `a < b` for tuples of strings. -/
def strTupleLt : List String → List String → Bool
  | [], [] => false
  | [], _ :: _ => true
  | _ :: _, [] => false
  | a :: as, b :: bs => if a = b then strTupleLt as bs else decide (a < b)

/-- `a < b` for booleans. -/
def boolLt (a b : Bool) : Bool := !a && b

/-- `a < b` on `Skill`: `@dataclass(order=True)` at simulator/skills/skill.py:17-45 compares the
tuples of fields: the first differing field decides; the spec classes are not orderable.
Simplification: dictionary equality is order-sensitive in the model. -/
def Skill.pyLt (a b : Skill) : Py Bool :=
  if a.name ≠ b.name then .ok (decide (a.name < b.name))
  else if a.damageSpec ≠ b.damageSpec then .error .typeError
  else if a.timingSpec ≠ b.timingSpec then .error .typeError
  else if a.buffSpec ≠ b.buffSpec then .error .typeError
  else if a.debuffSpec ≠ b.debuffSpec then .error .typeError
  else if a.channelingSpec ≠ b.channelingSpec then .error .typeError
  else if a.jobResourceSpec ≠ b.jobResourceSpec then Cond.tupleLt a.jobResourceSpec b.jobResourceSpec
  else if a.comboSpec ≠ b.comboSpec then Cond.tupleLt a.comboSpec b.comboSpec
  else if a.statusEffectDenylist ≠ b.statusEffectDenylist then
    .ok (strTupleLt a.statusEffectDenylist b.statusEffectDenylist)
  else if a.isGCD ≠ b.isGCD then
    match a.isGCD, b.isGCD with
    | some x, some y => .ok (boolLt x y)
    | _, _ => .error .typeError
  else if a.ignoredConditionsForBonusPotency ≠ b.ignoredConditionsForBonusPotency then
    .ok (strTupleLt a.ignoredConditionsForBonusPotency b.ignoredConditionsForBonusPotency)
  else if a.jobResourcesSnapshot ≠ b.jobResourcesSnapshot then
    .ok (boolLt a.jobResourcesSnapshot b.jobResourcesSnapshot)
  else if a.followUpSkills ≠ b.followUpSkills then Cond.tupleLt a.followUpSkills b.followUpSkills
  else if a.hasAoe ≠ b.hasAoe then .ok (boolLt a.hasAoe b.hasAoe)
  else if a.aoeDropoff ≠ b.aoeDropoff then
    match a.aoeDropoff, b.aoeDropoff with
    | some x, some y => .ok (decide (x < y))
    | _, _ => .error .typeError
  else .ok (decide (a.offClassDefaultCondition < b.offClassDefaultCondition))

end Ama
