import Verif.Model.SkillLibrary
import Verif.Py.Float

/-!
# Python values and constructors used by the game data

The classes under `simulator/game_data/class_skills` are Python code that builds skills out of numbers,
strings, tuples, dictionaries and the specification classes.  `tools/translate.py` turns every method of
these classes into a Lean function over the type `PyVal` of dynamically typed values; this file contains
`PyVal`, the Python operations those methods use, and the constructors of the specification classes with
their run-time type checks.
-/

namespace Ama.GameData

/-! ## Versions -/

/-- The version strings that occur as literals in the game data. -/
inductive Patch
  | p655 | p70 | p701 | p705 | p71
deriving DecidableEq

/-- The version string itself. -/
def Patch.text : Patch → String
  | .p655 => "6.55"
  | .p70 => "7.0"
  | .p701 => "7.01"
  | .p705 => "7.05"
  | .p71 => "7.1"

/-- All of them, in the order of the strings. -/
def Patch.all : List Patch := [.p655, .p70, .p701, .p705, .p71]

/-- The position of a listed version on the scale used by `Env.pos`. -/
def Patch.rank : Patch → ℕ
  | .p655 => 1
  | .p70 => 3
  | .p701 => 5
  | .p705 => 7
  | .p71 => 9

/-- The arguments `version` and `level` of a class description (generic_job_class.py:15-22).  The code
compares the version only with the five strings of `Patch`, so all it can see of a version string is its
position among them: twice the number of listed versions below it, plus one if it is a listed version
itself.  `Env.of` computes the position of a string; `Env.of_lt` etc. (`Verif.Lemmas.GameData.Env`) prove that
comparing positions is comparing strings. -/
structure Env where
  pos : ℕ
  level : ℤ
deriving DecidableEq

/-- The position of a version string (see `Env`). -/
def Env.of (version : String) (level : ℤ) : Env :=
  { pos := 2 * (Patch.all.filter (fun p => decide (p.text < version))).length +
      (if Patch.all.any (fun p => decide (version = p.text)) then 1 else 0)
    level }

/-- `self._version < p` -/
def Env.lt (e : Env) (p : Patch) : Bool := decide (e.pos < p.rank)
/-- `self._version <= p` -/
def Env.le (e : Env) (p : Patch) : Bool := decide (e.pos ≤ p.rank)
/-- `self._version > p` -/
def Env.gt (e : Env) (p : Patch) : Bool := decide (p.rank < e.pos)
/-- `self._version >= p` -/
def Env.ge (e : Env) (p : Patch) : Bool := decide (p.rank ≤ e.pos)
/-- `self._version == p` -/
def Env.eq (e : Env) (p : Patch) : Bool := decide (e.pos = p.rank)
/-- `self._version != p` -/
def Env.ne (e : Env) (p : Patch) : Bool := !decide (e.pos = p.rank)

/-! ## Values -/

/-- The Python values occurring in the game data.  `unbound` is a local variable that has not been
assigned; no operation accepts it.  A skill is represented by the arguments of its constructor, which have
passed the checks; `mkSkill` turns them into the skill.  A `float` literal stands for its exact decimal value, the result of an
operation on floats for the binary floating point number Python computes. -/
inductive PyVal
  | unbound
  | none
  | bool (b : Bool)
  | int (z : ℤ)
  | float (q : ℚ)
  | inf
  | negInf
  | str (s : String)
  | tuple (l : List PyVal)
  | list (l : List PyVal)
  | dict (d : List (PyVal × PyVal))
  | damageClass (c : DamageClass)
  | forced (f : Forced)
  | damage (s : DamageSpec)
  | timing (s : TimingSpec)
  | effect (s : StatusEffectSpec)
  | channeling (s : ChannelingSpec)
  | combo (s : ComboSpec)
  | resource (s : JobResourceSpec)
  | settings (s : JobResourceSettings)
  | followUp (f : FollowUp)
  | skill (s : RawSkill)

/-- Local variables start out unassigned. -/
instance : Inhabited PyVal := ⟨.unbound⟩

namespace PyVal

/-! ### Operations -/

/-- `a == b` for strings and for integers, the only dictionary keys. -/
def keyEq : PyVal → PyVal → Bool
  | .str a, .str b => decide (a = b)
  | .int a, .int b => decide (a = b)
  | _, _ => false

/-- `d[k] = v` on the association list of a dictionary. -/
def assocSet : List (PyVal × PyVal) → PyVal → PyVal → List (PyVal × PyVal)
  | [], k, v => [(k, v)]
  | (k', v') :: d, k, v => if keyEq k' k then (k', v) :: d else (k', v') :: assocSet d k v

/-- `d[k]` on the association list of a dictionary. -/
def assocGet : List (PyVal × PyVal) → PyVal → Py PyVal
  | [], _ => .error .keyError
  | (k', v') :: d, k => if keyEq k' k then .ok v' else assocGet d k

/-- A dictionary display `{k: v, ...}`: a later equal key replaces the value of an earlier one. -/
def mkDict (l : List (PyVal × PyVal)) : PyVal :=
  .dict (l.foldl (fun d kv => assocSet d kv.1 kv.2) [])

/-- `a[i]` for dictionaries, and for lists and tuples with an index that is not negative. -/
def getItem : PyVal → PyVal → Py PyVal
  | .dict d, k => assocGet d k
  | .list l, .int i => if i < 0 then .error .indexError else pyIdx l i.toNat
  | .tuple l, .int i => if i < 0 then .error .indexError else pyIdx l i.toNat
  | _, _ => .error .typeError

/-- `a[k] = v` for dictionaries. -/
def setItem : PyVal → PyVal → PyVal → Py PyVal
  | .dict d, k, v => .ok (.dict (assocSet d k v))
  | _, _, _ => .error .typeError

/-- `a.append(x)` -/
def append : PyVal → PyVal → Py PyVal
  | .list l, x => .ok (.list (l ++ [x]))
  | _, _ => .error .attributeError

/-- `a | b` for dictionaries. -/
def union : PyVal → PyVal → Py PyVal
  | .dict a, .dict b => .ok (.dict (b.foldl (fun d kv => assocSet d kv.1 kv.2) a))
  | _, _ => .error .typeError

/-- `tuple(x)` -/
def toTuple : PyVal → Py PyVal
  | .list l => .ok (.tuple l)
  | .tuple l => .ok (.tuple l)
  | _ => .error .typeError

/-- `d.keys()`; the values of the game data that are iterated over. -/
def keys : PyVal → Py PyVal
  | .dict d => .ok (.list (d.map Prod.fst))
  | _ => .error .attributeError

/-- `d.items()` -/
def items : PyVal → Py PyVal
  | .dict d => .ok (.list (d.map (fun kv => .tuple [kv.1, kv.2])))
  | _ => .error .attributeError

/-- The elements a `for` loop runs over; a dictionary gives its keys. -/
def iter : PyVal → Py (List PyVal)
  | .list l => .ok l
  | .tuple l => .ok l
  | .dict d => .ok (d.map Prod.fst)
  | _ => .error .typeError

/-- `range(lo, hi, step)` for a positive step. -/
def range : PyVal → PyVal → PyVal → Py PyVal
  | .int lo, .int hi, .int step =>
    if step ≤ 0 then .error .valueError
    else .ok (.list ((List.range ((hi - lo + step - 1) / step).toNat).map
      (fun i => .int (lo + step * (i : ℤ)))))
  | _, _, _ => .error .typeError

/-- The value of a condition.  Only booleans are tested in the game data. -/
def truthy : PyVal → Py Bool
  | .bool b => .ok b
  | _ => .error .typeError

/-- `x if b else y`; only the chosen branch is evaluated. -/
def ifExp (b : Bool) (x y : Py PyVal) : Py PyVal := if b then x else y

/-- The binary floating point number, or integer, a number is. -/
def number : PyVal → Py ℚ
  | .int z => .ok z
  | .float q => .ok (float64 q)
  | _ => .error .typeError

/-- An arithmetic operation: exact on integers, rounded if a float takes part. -/
def arith (onInt : ℤ → ℤ → ℤ) (onRat : ℚ → ℚ → ℚ) : PyVal → PyVal → Py PyVal
  | .int a, .int b => .ok (.int (onInt a b))
  | a, b => do return .float (float64 (onRat (← number a) (← number b)))

/-- `a + b`.  Tuples and lists are concatenated. -/
def add : PyVal → PyVal → Py PyVal
  | .tuple a, .tuple b => .ok (.tuple (a ++ b))
  | .list a, .list b => .ok (.list (a ++ b))
  | a, b => arith (· + ·) (· + ·) a b
/-- `a - b` -/
def sub : PyVal → PyVal → Py PyVal := arith (· - ·) (· - ·)
/-- `a * b` for numbers. -/
def mul : PyVal → PyVal → Py PyVal := arith (· * ·) (· * ·)
/-- `a / b` -/
def div (a b : PyVal) : Py PyVal := do
  let x ← number a
  let y ← number b
  if y = 0 then .error .zeroDivisionError else return .float (float64 (x / y))
/-- `-a` -/
def neg : PyVal → Py PyVal
  | .int a => .ok (.int (-a))
  | .float a => .ok (.float (-a))
  | .inf => .ok .negInf
  | .negInf => .ok .inf
  | _ => .error .typeError
/-- `+a` -/
def pos : PyVal → Py PyVal
  | .int a => .ok (.int a)
  | .float a => .ok (.float a)
  | _ => .error .typeError

/-- `int(a)` for numbers. -/
def toInt : PyVal → Py PyVal
  | .int a => .ok (.int a)
  | .float a => .ok (.int (pyInt (float64 a)))
  | .inf | .negInf => .error .valueError
  | _ => .error .typeError

/-- `max(a, b)`: the second only if it is greater. -/
def max (a b : PyVal) : Py PyVal := do
  if (← number a) < (← number b) then return b else return a
/-- `min(a, b)`: the second only if it is smaller. -/
def min (a b : PyVal) : Py PyVal := do
  if (← number b) < (← number a) then return b else return a

/-- One piece of an f-string: a string as it is, an integer in decimal. -/
def format : PyVal → Py (List Char)
  | .str s => .ok s.toList
  | .int z => .ok (toString z).toList
  | _ => .error .typeError

/-- `f"..."` -/
def fstring (l : List PyVal) : Py PyVal := do
  return .str (String.ofList (← l.mapM format).flatten)

/-! ### Reading values as arguments -/

/-- A value that must be an integer; the error is the one of the failing `isinstance` assertion. -/
def asInt : PyVal → Py ℤ
  | .int z => .ok z
  | _ => .error .assertionError

/-- A value that must be an integer or `math.inf` (`isinstance(x, int) or x == math.inf`). -/
def asIntOrInf : PyVal → Py (WithTop ℤ)
  | .int z => .ok z
  | .inf => .ok ⊤
  | _ => .error .assertionError

/-- A number.  A float literal is read as its exact decimal value.  Simplification: the code does not
check such arguments; a value that is not a number is only found out when it is used. -/
def asNum : PyVal → Py ℚ
  | .int z => .ok z
  | .float q => .ok q
  | _ => .error .typeError

/-- A number or `math.inf`; not checked by the code. -/
def asNumOrInf : PyVal → Py (WithTop ℚ)
  | .inf => .ok ⊤
  | a => do return ((← asNum a : ℚ) : WithTop ℚ)

/-- `None` or a number; not checked by the code. -/
def asOptNum : PyVal → Py (Option ℚ)
  | .none => .ok Option.none
  | a => do return some (← asNum a)

/-- A boolean; not checked by the code, which only tests it.  An integer counts as true unless it is
zero (caster/smn.py:360-361 passes `0`). -/
def asBool : PyVal → Py Bool
  | .bool b => .ok b
  | .int z => .ok (decide (z ≠ 0))
  | _ => .error .typeError

/-- A string. -/
def asStr : PyVal → Py String
  | .str s => .ok s
  | _ => .error .assertionError

/-- A tuple of strings. -/
def asStrs : PyVal → Py (List String)
  | .tuple l => l.mapM asStr
  | _ => .error .assertionError

/-- A member of `ForcedCritOrDH`; not checked by the code. -/
def asForced : PyVal → Py Forced
  | .forced f => .ok f
  | _ => .error .typeError

end PyVal

open PyVal

/-! ## Constructors -/

/-- The arguments of `TimingSpec`, simulator/specs/timing_spec.py:6-11 -/
structure TimingArgs where
  base_cast_time : PyVal
  gcd_base_recast_time : PyVal := .none
  animation_lock : PyVal := .int 650
  application_delay : PyVal := .int 0
  affected_by_speed_stat : PyVal := .bool true
  affected_by_haste_buffs : PyVal := .bool true

/-- simulator/specs/timing_spec.py:13-24 `TimingSpec(...)` with its checks -/
def newTimingSpec (a : TimingArgs) : Py PyVal := do
  let gcd ← match a.gcd_base_recast_time with
    | .none => pure GameConsts.GCD_RECAST_TIME
    | g => do pure ((← asInt g : ℤ) : ℚ)
  return .timing {
    baseCastTime := (← asInt a.base_cast_time : ℤ)
    gcdBaseRecastTime := gcd
    animationLock := (← asInt a.animation_lock : ℤ)
    applicationDelay := (← asInt a.application_delay : ℤ)
    affectedBySpeedStat := ← asBool a.affected_by_speed_stat
    affectedByHasteBuffs := ← asBool a.affected_by_haste_buffs }

/-- The arguments of `DamageSpec`, simulator/specs/damage_spec.py:7-18 -/
structure DamageArgs where
  potency : PyVal := .none
  damage_class : PyVal := .damageClass .direct
  guaranteed_crit : PyVal := .forced .default
  guaranteed_dh : PyVal := .forced .default
  trait_damage_mult_override : PyVal := .none
  pet_job_mod_override : PyVal := .none
  pet_scalar : PyVal := .float 1
  use_min_potency : PyVal := .none
  single_damage_mult : PyVal := .int 1

/-- simulator/specs/damage_spec.py:6-18 `DamageSpec(...)`.  The code checks nothing here; a potency that
is not a number (see `Ama.DamageSpec`) is an error in the model. -/
def newDamageSpec (a : DamageArgs) : Py PyVal := do
  return .damage {
    potency := ← asNum a.potency
    damageClass := ← match a.damage_class with
      | .damageClass c => pure c
      | _ => .error .typeError
    guaranteedCrit := ← asForced a.guaranteed_crit
    guaranteedDh := ← asForced a.guaranteed_dh
    traitDamageMultOverride := ← asOptNum a.trait_damage_mult_override
    petJobModOverride := ← asOptNum a.pet_job_mod_override
    petScalar := ← asNum a.pet_scalar
    useMinPotency := ← asOptNum a.use_min_potency
    singleDamageMult := ← asNum a.single_damage_mult }

/-- The arguments of `StatusEffectSpec`, simulator/specs/status_effect_spec.py:9-38 -/
structure EffectArgs where
  duration : PyVal := .int 0
  max_duration : PyVal := .none
  num_uses : PyVal := .inf
  max_num_uses : PyVal := .none
  crit_rate_add : PyVal := .int 0
  dh_rate_add : PyVal := .int 0
  damage_mult : PyVal := .int 1
  main_stat_add : PyVal := .int 0
  main_stat_mult : PyVal := .int 1
  auto_attack_delay_reduction : PyVal := .int 0
  haste_time_reduction : PyVal := .int 0
  flat_cast_time_reduction : PyVal := .int 0
  flat_gcd_recast_time_reduction : PyVal := .int 0
  extends_existing_duration : PyVal := .bool true
  expires_status_effects : PyVal := .tuple []
  skill_allowlist : PyVal := .none
  guaranteed_crit : PyVal := .forced .default
  guaranteed_dh : PyVal := .forced .default
  add_to_skill_modifier_condition : PyVal := .bool false
  extend_only : PyVal := .bool false
  is_party_effect : PyVal := .bool false
  clear_all_status_effects : PyVal := .bool false

/-- Whole numbers of milliseconds as the durations of `Ama.StatusEffectSpec`. -/
def toDuration (x : WithTop ℤ) : WithTop ℚ := WithTop.map (fun z : ℤ => (z : ℚ)) x

/-- simulator/specs/status_effect_spec.py:40-63 `StatusEffectSpec(...)` with its checks -/
def newStatusEffectSpec (a : EffectArgs) : Py PyVal := do
  let maxDuration ← match a.max_duration with
    | .none => pure Option.none
    | d => do pure (some (toDuration (← asIntOrInf d)))
  let maxNumUses ← match a.max_num_uses with
    | .none => pure Option.none
    | n => do pure (some (← asIntOrInf n))
  let spec : StatusEffectSpec := {
    duration := toDuration (← asIntOrInf a.duration)
    numUses := ← asIntOrInf a.num_uses
    critRateAdd := ← asNum a.crit_rate_add
    dhRateAdd := ← asNum a.dh_rate_add
    damageMult := ← asNum a.damage_mult
    mainStatAdd := ← asNum a.main_stat_add
    mainStatMult := ← asNum a.main_stat_mult
    autoAttackDelayReduction := ← asNum a.auto_attack_delay_reduction
    hasteTimeReduction := ← asNum a.haste_time_reduction
    flatCastTimeReduction := toDuration (← asIntOrInf a.flat_cast_time_reduction)
    flatGcdRecastTimeReduction := ← asNum a.flat_gcd_recast_time_reduction
    extendsExistingDuration := ← asBool a.extends_existing_duration
    expiresStatusEffects := ← asStrs a.expires_status_effects
    skillAllowlist := ← match a.skill_allowlist with
      | .none => pure Option.none
      | l => do pure (some (← asStrs l))
    guaranteedCrit := ← asForced a.guaranteed_crit
    guaranteedDh := ← asForced a.guaranteed_dh
    addToSkillModifierCondition := ← asBool a.add_to_skill_modifier_condition
    extendOnly := ← asBool a.extend_only
    isPartyEffect := ← asBool a.is_party_effect
    clearAllStatusEffects := ← asBool a.clear_all_status_effects }
  return .effect (spec.make maxDuration maxNumUses)

/-- The arguments of `ChannelingSpec`, simulator/specs/channeling_spec.py:6-9 -/
structure ChannelingArgs where
  duration : PyVal := .int 0
  skill_allowlist : PyVal := .tuple []
  num_uses : PyVal := .inf

/-- simulator/specs/channeling_spec.py:11-17 `ChannelingSpec(...)` with its checks -/
def newChannelingSpec (a : ChannelingArgs) : Py PyVal := do
  return .channeling {
    duration := toDuration (← asIntOrInf a.duration)
    skillAllowlist := ← asStrs a.skill_allowlist
    numUses := ← asIntOrInf a.num_uses }

/-- The arguments of `ComboSpec`, simulator/specs/combo_spec.py:5-9 -/
structure ComboArgs where
  combo_actions : PyVal := .tuple []
  combo_group : PyVal := .int 0
  combo_auto_succeed : PyVal := .bool false
  break_all_combos_only : PyVal := .bool false

/-- simulator/specs/combo_spec.py:4-9 `ComboSpec(...)`; the code checks nothing here. -/
def newComboSpec (a : ComboArgs) : Py PyVal := do
  return .combo {
    comboActions := ← asStrs a.combo_actions
    comboGroup := ← asInt a.combo_group
    comboAutoSucceed := ← asBool a.combo_auto_succeed
    breakAllCombosOnly := ← asBool a.break_all_combos_only }

/-- The arguments of `JobResourceSpec`, simulator/specs/job_resource_spec.py:6-17 -/
structure ResourceArgs where
  name : PyVal := .str ""
  change : PyVal := .int 0
  duration : PyVal := .inf
  refreshes_duration_of_last_gained : PyVal := .bool false
  clear_all_resources_only : PyVal := .bool false

/-- simulator/specs/job_resource_spec.py:5-17 `JobResourceSpec(...)`; the code checks nothing here. -/
def newJobResourceSpec (a : ResourceArgs) : Py PyVal := do
  return .resource {
    name := ← asStr a.name
    change := ← match a.change with
      | .int z => pure (z : WithBot ℤ)
      | .negInf => pure ⊥
      | _ => .error .typeError
    duration := ← asNumOrInf a.duration
    refreshesDurationOfLastGained := ← asBool a.refreshes_duration_of_last_gained
    clearAllResourcesOnly := ← asBool a.clear_all_resources_only }

/-- The arguments of `JobResourceSettings`, simulator/specs/job_resource_settings.py:6-10 -/
structure SettingsArgs where
  max_value : PyVal := .int 0
  skill_allowlist : PyVal := .tuple []
  expiry_from_last_gain : PyVal := .inf
  add_number_to_conditional : PyVal := .bool true

/-- simulator/specs/job_resource_settings.py:12-15 `JobResourceSettings(...)` with its check -/
def newJobResourceSettings (a : SettingsArgs) : Py PyVal := do
  return .settings {
    maxValue := ← asInt a.max_value
    skillAllowlist := ← asStrs a.skill_allowlist
    expiryFromLastGain := ← asNumOrInf a.expiry_from_last_gain
    addNumberToConditional := ← asBool a.add_number_to_conditional }

/-- The arguments of `FollowUp`, simulator/specs/follow_up.py:6-12 -/
structure FollowUpArgs where
  skill : PyVal
  delay_after_parent_application : PyVal
  snapshot_buffs_with_parent : PyVal := .bool true
  snapshot_debuffs_with_parent : PyVal := .bool true
  dot_duration : PyVal := .none
  primary_target_only : PyVal := .bool true

/-- simulator/specs/follow_up.py:14-23 `FollowUp(...)` with its checks (a delay of `None` passes the first
one and raises `TypeError` in the second).  The follow-ups of the skill itself are dropped, see
`Ama.FollowUp`. -/
def newFollowUp (a : FollowUpArgs) : Py PyVal := do
  let skill ← match a.skill with
    | .skill r => do pure (← mkSkill r).toSkillCore
    | _ => .error .typeError
  let delay ← match a.delay_after_parent_application with
    | .none => .error .typeError
    | d => asInt d
  if delay < 0 then .error .assertionError
  let dot ← match a.dot_duration with
    | .none => pure Option.none
    | d => do pure (some (← asInt d))
  return .followUp {
    skill := skill
    delayAfterParentApplication := delay.toNat
    snapshotBuffsWithParent := ← asBool a.snapshot_buffs_with_parent
    snapshotDebuffsWithParent := ← asBool a.snapshot_debuffs_with_parent
    dotDuration := dot
    primaryTargetOnly := ← asBool a.primary_target_only }

/-- The arguments of `Skill`, simulator/skills/skill.py:18-45 -/
structure SkillArgs where
  name : PyVal
  damage_spec : PyVal := .none
  timing_spec : PyVal := .none
  buff_spec : PyVal := .none
  debuff_spec : PyVal := .none
  channeling_spec : PyVal := .none
  job_resource_spec : PyVal := .tuple []
  combo_spec : PyVal := .tuple []
  status_effect_denylist : PyVal := .tuple []
  is_GCD : PyVal := .none
  ignored_conditions_for_bonus_potency : PyVal := .tuple []
  job_resources_snapshot : PyVal := .bool true
  follow_up_skills : PyVal := .tuple []
  has_aoe : PyVal := .bool false
  aoe_dropoff : PyVal := .none
  off_class_default_condition : PyVal := .str SimConsts.DEFAULT_CONDITION

/-- A conditional specification: one value, or a dictionary whose keys are condition strings. -/
def asCond {α : Type} (read : PyVal → Py α) : PyVal → Py (RawCond α)
  | .dict d => do
    return .dict (← d.mapM (fun kv => do return (← asStr kv.1, ← read kv.2)))
  | v => do return .single (← read v)

/-- `None` or a damage spec. -/
def asDamage : PyVal → Py (Option DamageSpec)
  | .none => .ok Option.none
  | .damage s => .ok (some s)
  | _ => .error .typeError

/-- `None` or a timing spec. -/
def asTiming : PyVal → Py (Option TimingSpec)
  | .none => .ok Option.none
  | .timing s => .ok (some s)
  | _ => .error .typeError

/-- `None` or a status effect. -/
def asEffect : PyVal → Py (Option StatusEffectSpec)
  | .none => .ok Option.none
  | .effect s => .ok (some s)
  | _ => .error .typeError

/-- `None` or a channeling spec. -/
def asChanneling : PyVal → Py (Option ChannelingSpec)
  | .none => .ok Option.none
  | .channeling s => .ok (some s)
  | _ => .error .typeError

/-- A tuple of follow-ups, as checked by `__verify_dict_or_tuple`, simulator/skills/skill.py:74-87.  The
code does not check the elements of the tuples inside a dictionary; the model does. -/
def asFollowUps : PyVal → Py (List FollowUp)
  | .tuple l => l.mapM (fun
    | .followUp f => .ok f
    | _ => .error .assertionError)
  | _ => .error .assertionError

/-- A tuple of combo specs; see `asFollowUps`. -/
def asCombos : PyVal → Py (List ComboSpec)
  | .tuple l => l.mapM (fun
    | .combo s => .ok s
    | _ => .error .assertionError)
  | _ => .error .assertionError

/-- A tuple of job resource specs; see `asFollowUps`. -/
def asResources : PyVal → Py (List JobResourceSpec)
  | .tuple l => l.mapM (fun
    | .resource s => .ok s
    | _ => .error .assertionError)
  | _ => .error .assertionError

/-- simulator/skills/skill.py:162-229 `Skill(...)`: the checks, then `mkSkill`.  The value keeps the
arguments, see `PyVal`. -/
def newSkill (a : SkillArgs) : Py PyVal := do
  let r : RawSkill := {
    name := ← asStr a.name
    damageSpec := ← asCond asDamage a.damage_spec
    timingSpec := ← asCond asTiming a.timing_spec
    buffSpec := ← asCond asEffect a.buff_spec
    debuffSpec := ← asCond asEffect a.debuff_spec
    channelingSpec := ← asCond asChanneling a.channeling_spec
    jobResourceSpec := ← asCond asResources a.job_resource_spec
    comboSpec := ← asCond asCombos a.combo_spec
    statusEffectDenylist := ← asStrs a.status_effect_denylist
    isGCD := ← match a.is_GCD with
      | .none => pure Option.none
      | b => do pure (some (← asBool b))
    ignoredConditionsForBonusPotency := ← asStrs a.ignored_conditions_for_bonus_potency
    jobResourcesSnapshot := ← asBool a.job_resources_snapshot
    followUpSkills := ← asCond asFollowUps a.follow_up_skills
    hasAoe := ← asBool a.has_aoe
    aoeDropoff := ← asOptNum a.aoe_dropoff
    offClassDefaultCondition := ← asStr a.off_class_default_condition }
  let _ ← mkSkill r
  return .skill r

/-! ## Skill data (`SpecificSkills`) -/

/-- The nested dictionary of a `*_data.py` file: skill name, level, parameter, version.  The values are
Python expressions, evaluated when the file is imported. -/
abbrev Table := Dict String (Dict ℤ (Dict String (Dict Patch (Py PyVal))))

/-- simulator/utils.py:21-28 `get_greatest_dict_key_val_less_than_query` for a dictionary of listed
versions: the value of the greatest one that is not above the given version, or `None`. -/
def latest (versions : Dict Patch (Py PyVal)) (e : Env) : Py PyVal :=
  match versions.filter (fun kv => decide (kv.1.rank ≤ e.pos)) with
  | [] => .ok .none
  | kv :: kvs => (kvs.foldl (fun m x => if m.1.rank < x.1.rank then x else m) kv).2

/-- simulator/game_data/specific_skills.py:20-31 `get_skill_data` (see `SpecificSkills.getSkillData`). -/
def getSkillData (t : Table) (e : Env) (name param : PyVal) : Py PyVal := do
  let n ← asStr name
  let p ← asStr param
  match Dict.get? t n with
  | Option.none => .error .assertionError
  | some levels =>
    match Dict.get? levels e.level with
    | Option.none => .error .assertionError
    | some params =>
      match Dict.get? params p with
      | Option.none => .error .assertionError
      | some versions => latest versions e

/-- simulator/game_data/specific_skills.py:34-38 `get_potency` -/
def getPotency (t : Table) (e : Env) (name : PyVal) : Py PyVal := do
  match ← getSkillData t e name (.str "potency") with
  | .none => .error .valueError
  | x => .ok x

/-- simulator/game_data/specific_skills.py:41-46 `get_potency_no_combo` -/
def getPotencyNoCombo (t : Table) (e : Env) (name : PyVal) : Py PyVal := do
  match ← getSkillData t e name (.str "potency_no_combo") with
  | .none => .error .assertionError
  | x => .ok x

/-- simulator/game_data/specific_skills.py:48-53 `get_potency_no_positional` -/
def getPotencyNoPositional (t : Table) (e : Env) (name : PyVal) : Py PyVal := do
  match ← getSkillData t e name (.str "potency_no_pos") with
  | .none => .error .assertionError
  | x => .ok x

/-! ## `GenericJobClass` -/

/-- simulator/game_data/convenience_timings.py:3-4, used at generic_job_class.py:11 -/
def autoTimingSpec : Py PyVal :=
  newTimingSpec { base_cast_time := .int 0, animation_lock := .int 0, application_delay := .int 532 }

/-- simulator/game_data/convenience_timings.py:6-7, used at generic_job_class.py:13 -/
def shotTimingSpec : Py PyVal :=
  newTimingSpec { base_cast_time := .int 0, animation_lock := .int 0, application_delay := .int 758 }

/-- simulator/game_data/convenience_timings.py:12-13, used at generic_job_class.py:12 -/
def instantTimingSpec : Py PyVal :=
  newTimingSpec { base_cast_time := .int 0, animation_lock := .int 650 }

/-- What one skill method contributes, generic_job_class.py:42-52 (an element of a returned list that is
not a skill is only found out later in the code; an error here). -/
def skillsOf : PyVal → Py (List RawSkill)
  | .none => .ok []
  | .skill s => .ok [s]
  | .list l => l.mapM (fun
    | .skill s => .ok s
    | _ => .error .typeError)
  | .tuple l => l.mapM (fun
    | .skill s => .ok s
    | _ => .error .typeError)
  | _ => .error .typeError

/-- simulator/game_data/generic_job_class.py:38-53 `get_skills`, up to the representation of skills; the
methods come in the order of their names, as `dir` lists them. -/
def getRawSkills (methods : List (Py PyVal)) : Py (List RawSkill) := do
  return (← methods.mapM (fun m => do skillsOf (← m))).flatten

/-- simulator/game_data/generic_job_class.py:38-53 `get_skills` -/
def getSkills (methods : List (Py PyVal)) : Py (List Skill) := do
  (← getRawSkills methods).mapM mkSkill

/-- simulator/game_data/generic_job_class.py:67-82 `get_resources` with its checks -/
def getResources (methods : List (Py PyVal)) : Py (List (String × JobResourceSettings)) := do
  return (← methods.mapM (fun m => do
    match ← m with
    | .none => return []
    | .tuple [.str n, .settings s] => return [(n, s)]
    | _ => .error .assertionError)).flatten

/-- The result of `get_status_effect_priority` -/
def readPriority : PyVal → Py (Option (List String))
  | .none => .ok Option.none
  | v => do return some (← asStrs v)

/-- The result of `get_combo_breakers`: a tuple of pairs of a combo group and the tuple of the groups that
break it. -/
def readBreakers : PyVal → Py (Option (List (ℤ × List ℤ)))
  | .none => .ok Option.none
  | .tuple l => do
    return some (← l.mapM (fun
      | .tuple [.int g, .tuple bs] => do return (g, ← bs.mapM asInt)
      | .tuple [.int g, .list bs] => do return (g, ← bs.mapM asInt)
      | _ => .error .typeError))
  | _ => .error .typeError

/-- A class description (a subclass of `GenericJobClass`) for one version and level, as
`SkillLibrary.add_all_skills_from` sees it: the results of its methods, any of which may raise. -/
structure JobClass where
  jobClass : String
  /-- The constructor `__init__`. -/
  init : Py Unit := .ok ()
  priority : Py PyVal := .ok .none
  comboBreakers : Py PyVal := .ok .none
  skillMethods : List (Py PyVal)
  resourceMethods : List (Py PyVal) := []

end Ama.GameData
