import Verif.Model.Utils

/-!
# Model of `simulator/specs/*.py`

Constructor type checks (`isinstance(...)` assertions) are replaced by typing.  Durations and use
counts may be `math.inf`, hence `WithTop`.
-/

namespace Ama

/-- simulator/specs/channeling_spec.py:6-9 -/
structure ChannelingSpec where
  duration : WithTop ℚ := 0
  skillAllowlist : List String := []
  numUses : WithTop ℤ := ⊤
deriving DecidableEq

/-- simulator/specs/combo_spec.py:5-9 -/
structure ComboSpec where
  comboActions : List String := []
  comboGroup : ℤ := 0
  comboAutoSucceed : Bool := false
  breakAllCombosOnly : Bool := false
deriving DecidableEq

/-- simulator/specs/damage_spec.py:7-18.  Simplification: `potency` is required (its Python default
`None` makes every computation raise `TypeError`). -/
structure DamageSpec where
  potency : ℚ
  damageClass : DamageClass := .direct
  guaranteedCrit : Forced := .default
  guaranteedDh : Forced := .default
  traitDamageMultOverride : Option ℚ := none
  petJobModOverride : Option ℚ := none
  petScalar : ℚ := 1
  useMinPotency : Option ℚ := none
  singleDamageMult : ℚ := 1
deriving DecidableEq

/-- simulator/specs/job_resource_settings.py:6-10.  `max_value` is a finite integer. -/
structure JobResourceSettings where
  maxValue : ℤ := 0
  skillAllowlist : List String := []
  expiryFromLastGain : WithTop ℚ := ⊤
  addNumberToConditional : Bool := true
deriving DecidableEq

/-- simulator/specs/job_resource_spec.py:6-17.  `change` may be `-math.inf`, hence `WithBot`. -/
structure JobResourceSpec where
  name : String := ""
  change : WithBot ℤ := 0
  duration : WithTop ℚ := ⊤
  refreshesDurationOfLastGained : Bool := false
  clearAllResourcesOnly : Bool := false
deriving DecidableEq

/-- simulator/specs/status_effect_spec.py:8-38, after `__post_init__` (lines 40-44) has replaced
`max_duration = None` by `duration` and `max_num_uses = None` by `num_uses`; see
`StatusEffectSpec.make`. -/
structure StatusEffectSpec where
  duration : WithTop ℚ := 0
  maxDuration : WithTop ℚ := 0
  numUses : WithTop ℤ := ⊤
  maxNumUses : WithTop ℤ := ⊤
  critRateAdd : ℚ := 0
  dhRateAdd : ℚ := 0
  damageMult : ℚ := 1
  mainStatAdd : ℚ := 0
  mainStatMult : ℚ := 1
  autoAttackDelayReduction : ℚ := 0
  hasteTimeReduction : ℚ := 0
  flatCastTimeReduction : WithTop ℚ := 0
  flatGcdRecastTimeReduction : ℚ := 0
  extendsExistingDuration : Bool := true
  expiresStatusEffects : List String := []
  skillAllowlist : Option (List String) := none
  guaranteedCrit : Forced := .default
  guaranteedDh : Forced := .default
  addToSkillModifierCondition : Bool := false
  extendOnly : Bool := false
  isPartyEffect : Bool := false
  clearAllStatusEffects : Bool := false
deriving DecidableEq

/-- simulator/specs/status_effect_spec.py:40-44 `__post_init__`: fill in the two defaults. -/
def StatusEffectSpec.make (s : StatusEffectSpec) (maxDuration : Option (WithTop ℚ) := none)
    (maxNumUses : Option (WithTop ℤ) := none) : StatusEffectSpec :=
  { s with maxDuration := maxDuration.getD s.duration, maxNumUses := maxNumUses.getD s.numUses }

/-- simulator/specs/timing_spec.py:6-11, with the default of `gcd_base_recast_time` filled in as in
`__post_init__` (lines 21-23).  All values are integers in the code; the model allows rationals. -/
structure TimingSpec where
  baseCastTime : ℚ
  gcdBaseRecastTime : ℚ := GameConsts.GCD_RECAST_TIME
  animationLock : ℚ := 650
  applicationDelay : ℚ := 0
  affectedBySpeedStat : Bool := true
  affectedByHasteBuffs : Bool := true
deriving DecidableEq

/-- simulator/trackers/status_effects.py:7-19 -/
structure StatusEffects where
  critRateAdd : ℚ := 0
  dhRateAdd : ℚ := 0
  damageMult : ℚ := 1
  autoAttackDelayMult : ℚ := 1
  mainStatAdd : ℚ := 0
  mainStatMult : ℚ := 1
  hasteTimeMult : ℚ := 1
  flatCastTimeReduction : WithTop ℚ := 0
  flatGcdRecastTimeReduction : ℚ := 0
  guaranteedCrit : Forced := .default
  guaranteedDh : Forced := .default
  statusEffects : List String := []
deriving DecidableEq

/-- simulator/trackers/status_effects.py:21-35 `__eq__`: everything but the tuple of names. -/
def StatusEffects.pyEq (a b : StatusEffects) : Bool :=
  decide ({ a with statusEffects := [] } = { b with statusEffects := [] })

end Ama
