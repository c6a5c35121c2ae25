import Verif.Model.GameData.Values

/-!
# DNC

Model of `simulator/game_data/class_skills/ranged/dnc.py` and `simulator/game_data/class_skills/ranged/dnc_data.py`, written by
`tools/translate.py`: one function per method.  Paths in the comments are relative to
`simulator/game_data`.
-/

namespace Ama.GameData.Dnc

open PyVal

/-- class_skills/ranged/dnc_data.py:7-84 `ALL_DATA` -/
def table : Table := [
  ("Cascade", [
    (90, [("potency", [(.p655, .ok (.int 220)), (.p70, .ok (.int 200))])]),
    (100, [("potency", [(.p70, .ok (.int 220))])])]),
  ("Fountain", [
    (90, [
      ("potency", [(.p655, .ok (.int 280)), (.p70, .ok (.int 260))]),
      ("potency_no_combo", [(.p655, .ok (.int 100))])]),
    (100, [
      ("potency", [(.p70, .ok (.int 280))]),
      ("potency_no_combo", [(.p70, .ok (.int 120))])])]),
  ("Windmill", [
    (90, [("potency", [(.p655, .ok (.int 100))])]),
    (100, [("potency", [(.p70, .ok (.int 100))])])]),
  ("Standard Finish", [
    (90, [
      ("Double", [(.p655, .ok (.int 720)), (.p70, .ok (.int 800))]),
      ("Single", [(.p655, .ok (.int 540))]),
      ("Zero", [(.p655, .ok (.int 360))])]),
    (100, [
      ("Double", [(.p70, .ok (.int 850))]),
      ("Single", [(.p70, .ok (.int 540))]),
      ("Zero", [(.p70, .ok (.int 360))])])]),
  ("Reverse Cascade", [
    (90, [("potency", [(.p655, .ok (.int 280)), (.p70, .ok (.int 260))])]),
    (100, [("potency", [(.p70, .ok (.int 280))])])]),
  ("Bladeshower", [
    (90, [
      ("potency", [(.p655, .ok (.int 140))]),
      ("potency_no_combo", [(.p655, .ok (.int 100))])]),
    (100, [
      ("potency", [(.p70, .ok (.int 140))]),
      ("potency_no_combo", [(.p70, .ok (.int 100))])])]),
  ("Devilment", [
    (90, [("duration", [(.p655, do return (← PyVal.mul (.int 20) (.int 1000)))])]),
    (100, [("duration", [(.p70, do return (← PyVal.mul (.int 20) (.int 1000)))])])]),
  ("Fan Dance", [
    (90, [("potency", [(.p655, .ok (.int 150))])]),
    (100, [("potency", [(.p70, .ok (.int 150)), (.p71, .ok (.int 180))])])]),
  ("Rising Windmill", [
    (90, [("potency", [(.p655, .ok (.int 140))])]),
    (100, [("potency", [(.p70, .ok (.int 140))])])]),
  ("Fountainfall", [
    (90, [("potency", [(.p655, .ok (.int 340)), (.p70, .ok (.int 320))])]),
    (100, [("potency", [(.p70, .ok (.int 340))])])]),
  ("Bloodshower", [
    (90, [("potency", [(.p655, .ok (.int 180))])]),
    (100, [("potency", [(.p70, .ok (.int 180))])])]),
  ("Fan Dance II", [
    (90, [("potency", [(.p655, .ok (.int 100))])]),
    (100, [("potency", [(.p70, .ok (.int 100))])])]),
  ("Fan Dance III", [
    (90, [("potency", [(.p655, .ok (.int 200))])]),
    (100, [("potency", [(.p70, .ok (.int 200)), (.p71, .ok (.int 220))])])]),
  ("Technical Finish", [
    (90, [
      ("Quadruple", [(.p655, .ok (.int 1200))]),
      ("Triple", [(.p655, .ok (.int 900))]),
      ("Double", [(.p655, .ok (.int 720))]),
      ("Single", [(.p655, .ok (.int 540))]),
      ("Zero", [(.p655, .ok (.int 350))])]),
    (100, [
      ("Quadruple", [(.p70, .ok (.int 1300))]),
      ("Triple", [(.p70, .ok (.int 900))]),
      ("Double", [(.p70, .ok (.int 720))]),
      ("Single", [(.p70, .ok (.int 540))]),
      ("Zero", [(.p655, .ok (.int 350))])])]),
  ("Saber Dance", [
    (90, [("potency", [(.p655, .ok (.int 480)), (.p70, .ok (.int 500))])]),
    (100, [("potency", [(.p70, .ok (.int 520))])])]),
  ("Tillana", [
    (90, [("potency", [(.p655, .ok (.int 360)), (.p70, .ok (.int 600))])]),
    (100, [("potency", [(.p70, .ok (.int 600))])])]),
  ("Finishing Move", [(100, [("potency", [(.p70, .ok (.int 850))])])]),
  ("Fan Dance IV", [
    (90, [("potency", [(.p655, .ok (.int 300))])]),
    (100, [("potency", [(.p70, .ok (.int 300)), (.p705, .ok (.int 420))])])]),
  ("Starfall Dance", [
    (90, [("potency", [(.p655, .ok (.int 600))])]),
    (100, [("potency", [(.p70, .ok (.int 600))])])]),
  ("Last Dance", [(100, [("potency", [(.p70, .ok (.int 520))])])]),
  ("Dance of the Dawn", [(100, [("potency", [(.p70, .ok (.int 1000))])])])]

/-- class_skills/ranged/dnc.py:22-34 `__get_standard_finish2_follow_up` -/
def get_standard_finish2_follow_up (_env : Env) : Py PyVal := do
  let name : PyVal := (.str "Standard Finish")
  return (← newFollowUp {
    skill := (← newSkill {
      name := name
      is_GCD := (.bool false)
      buff_spec := (← newStatusEffectSpec {
        damage_mult := (.float (105 / 100))
        duration := (.int 60000)
        is_party_effect := (.bool true) }) })
    delay_after_parent_application := (.int 0)
    primary_target_only := (.bool true) })

/-- class_skills/ranged/dnc.py:37-47 `auto` -/
def auto (_env : Env) : Py PyVal := do
  let name : PyVal := (.str "Auto")
  return (← newSkill {
    name := name
    is_GCD := (.bool false)
    timing_spec := (← shotTimingSpec)
    damage_spec := (← newDamageSpec {
      potency := (.int 90)
      damage_class := (.damageClass .auto)
      trait_damage_mult_override := (.int 1) }) })

/-- class_skills/ranged/dnc.py:49-60 `cascade` -/
def cascade (env : Env) : Py PyVal := do
  let name : PyVal := (.str "Cascade")
  return (← newSkill {
    name := name
    is_GCD := (.bool true)
    combo_spec := (.tuple [(← newComboSpec {})])
    damage_spec := (← newDamageSpec { potency := (← getPotency table env name) })
    timing_spec := (← newTimingSpec {
      base_cast_time := (.int 0)
      animation_lock := (.int 650)
      application_delay := (.int 800) }) })

/-- class_skills/ranged/dnc.py:62-80 `fountain` -/
def fountain (env : Env) : Py PyVal := do
  let name : PyVal := (.str "Fountain")
  return (← newSkill {
    name := name
    is_GCD := (.bool true)
    combo_spec := (.tuple [(← newComboSpec { combo_actions := (.tuple [(.str "Cascade")]) })])
    damage_spec := (mkDict [
      ((.str SimConsts.DEFAULT_CONDITION), (← newDamageSpec { potency := (← getPotency table env name) })),
      ((.str "No Combo"), (← newDamageSpec { potency := (← getPotencyNoCombo table env name) }))])
    timing_spec := (← newTimingSpec {
      base_cast_time := (.int 0)
      animation_lock := (.int 650)
      application_delay := (.int 980) }) })

/-- class_skills/ranged/dnc.py:82-93 `windmill` -/
def windmill (env : Env) : Py PyVal := do
  let name : PyVal := (.str "Windmill")
  return (← newSkill {
    name := name
    is_GCD := (.bool true)
    combo_spec := (.tuple [(← newComboSpec {})])
    damage_spec := (← newDamageSpec { potency := (← getPotency table env name) })
    timing_spec := (← newTimingSpec {
      base_cast_time := (.int 0)
      animation_lock := (.int 650)
      application_delay := (.int 620) }) })

/-- class_skills/ranged/dnc.py:95-245 `standard_finish` -/
def standard_finish (env : Env) : Py PyVal := do
  let mut name : PyVal := .unbound
  let mut res : PyVal := .unbound
  name := (.str "Standard Finish")
  res := (.list [])
  let standard_finish2_follow_up : PyVal := (← get_standard_finish2_follow_up env)
  let standard_finish1_follow_up : PyVal := (← newFollowUp {
    skill := (← newSkill {
      name := name
      is_GCD := (.bool false)
      buff_spec := (← newStatusEffectSpec {
        damage_mult := (.float (102 / 100))
        duration := (.int 60000)
        is_party_effect := (.bool true) }) })
    delay_after_parent_application := (.int 0)
    primary_target_only := (.bool true) })
  name := (.str "Standard Finish Remove Buff")
  let standard_remove_followup : PyVal := (← newFollowUp {
    skill := (← newSkill {
      name := name
      is_GCD := (.bool false)
      buff_spec := (← newStatusEffectSpec {
        expires_status_effects := (.tuple [(.str "Standard Finish")])
        is_party_effect := (.bool true) }) })
    delay_after_parent_application := (.int 0) })
  name := (.str "Double Standard Finish")
  let standard_finish_follow_up_damage_2 : PyVal := (← newFollowUp {
    skill := (← newSkill {
      name := name
      damage_spec := (← newDamageSpec {
        potency := (← getSkillData table env (.str "Standard Finish") (.str "Double")) }) })
    delay_after_parent_application := (.int 530)
    primary_target_only := (.bool false) })
  name := (.str "Single Standard Finish")
  let standard_finish_follow_up_damage_1 : PyVal := (← newFollowUp {
    skill := (← newSkill {
      name := name
      damage_spec := (← newDamageSpec {
        potency := (← getSkillData table env (.str "Standard Finish") (.str "Single")) }) })
    delay_after_parent_application := (.int 530)
    primary_target_only := (.bool false) })
  name := (.str "Standard Finish")
  let standard_finish_follow_up_damage_0 : PyVal := (← newFollowUp {
    skill := (← newSkill {
      name := name
      damage_spec := (← newDamageSpec {
        potency := (← getSkillData table env (.str "Standard Finish") (.str "Zero")) }) })
    delay_after_parent_application := (.int 530)
    primary_target_only := (.bool false) })
  name := (.str "Double Standard Finish")
  res := (← PyVal.append res (← newSkill {
    name := name
    is_GCD := (.bool true)
    has_aoe := (.bool true)
    timing_spec := (mkDict [
      ((.str SimConsts.DEFAULT_CONDITION), (← newTimingSpec {
        base_cast_time := (.int 0)
        gcd_base_recast_time := (.int 1500)
        affected_by_speed_stat := (.bool false) })),
      ((.str "Buff Only"), (← newTimingSpec { base_cast_time := (.int 0), gcd_base_recast_time := (.int 0) })),
      ((.str "Remove Buff"), (← newTimingSpec { base_cast_time := (.int 0), gcd_base_recast_time := (.int 0) }))])
    follow_up_skills := (mkDict [
      ((.str SimConsts.DEFAULT_CONDITION), (.tuple [standard_finish_follow_up_damage_2, standard_finish2_follow_up])),
      ((.str "Buff Only"), (.tuple [standard_finish2_follow_up])),
      ((.str "Remove Buff"), (.tuple [standard_remove_followup]))])
    off_class_default_condition := (.str "Buff Only") }))
  name := (.str "Single Standard Finish")
  res := (← PyVal.append res (← newSkill {
    name := name
    is_GCD := (.bool true)
    has_aoe := (.bool true)
    timing_spec := (mkDict [
      ((.str SimConsts.DEFAULT_CONDITION), (← newTimingSpec {
        base_cast_time := (.int 0)
        gcd_base_recast_time := (.int 1500)
        affected_by_speed_stat := (.bool false) })),
      ((.str "Buff Only"), (← newTimingSpec { base_cast_time := (.int 0), gcd_base_recast_time := (.int 0) })),
      ((.str "Remove Buff"), (← newTimingSpec { base_cast_time := (.int 0), gcd_base_recast_time := (.int 0) }))])
    follow_up_skills := (mkDict [
      ((.str SimConsts.DEFAULT_CONDITION), (.tuple [standard_finish_follow_up_damage_1, standard_finish1_follow_up])),
      ((.str "Buff Only"), (.tuple [standard_finish1_follow_up])),
      ((.str "Remove Buff"), (.tuple [standard_remove_followup]))])
    off_class_default_condition := (.str "Buff Only") }))
  name := (.str "Standard Finish")
  res := (← PyVal.append res (← newSkill {
    name := name
    is_GCD := (.bool true)
    has_aoe := (.bool true)
    timing_spec := (mkDict [
      ((.str SimConsts.DEFAULT_CONDITION), (← newTimingSpec {
        base_cast_time := (.int 0)
        gcd_base_recast_time := (.int 1500)
        affected_by_speed_stat := (.bool false) })),
      ((.str "Buff Only"), (← newTimingSpec { base_cast_time := (.int 0), gcd_base_recast_time := (.int 0) })),
      ((.str "Remove Buff"), (← newTimingSpec { base_cast_time := (.int 0), gcd_base_recast_time := (.int 0) }))])
    follow_up_skills := (mkDict [
      ((.str SimConsts.DEFAULT_CONDITION), (.tuple [standard_finish_follow_up_damage_2, standard_finish2_follow_up])),
      ((.str "Buff Only"), (.tuple [standard_finish2_follow_up])),
      ((.str "Remove Buff"), (.tuple [standard_remove_followup])),
      ((.str "Log"), (.tuple [standard_finish_follow_up_damage_0])),
      ((.str "Buff Only, Log"), (.tuple [])),
      ((.str "Remove Buff, Log"), (.tuple [standard_remove_followup]))])
    off_class_default_condition := (.str "Buff Only") }))
  return res

/-- class_skills/ranged/dnc.py:247-257 `reverse_cascade` -/
def reverse_cascade (env : Env) : Py PyVal := do
  let name : PyVal := (.str "Reverse Cascade")
  return (← newSkill {
    name := name
    is_GCD := (.bool true)
    damage_spec := (← newDamageSpec { potency := (← getPotency table env name) })
    timing_spec := (← newTimingSpec {
      base_cast_time := (.int 0)
      animation_lock := (.int 650)
      application_delay := (.int 620) }) })

/-- class_skills/ranged/dnc.py:259-278 `bladeshower` -/
def bladeshower (env : Env) : Py PyVal := do
  let name : PyVal := (.str "Bladeshower")
  return (← newSkill {
    name := name
    is_GCD := (.bool true)
    combo_spec := (.tuple [(← newComboSpec { combo_actions := (.tuple [(.str "Windmill")]) })])
    damage_spec := (mkDict [
      ((.str SimConsts.DEFAULT_CONDITION), (← newDamageSpec { potency := (← getPotency table env name) })),
      ((.str "No Combo"), (← newDamageSpec { potency := (← getPotencyNoCombo table env name) }))])
    timing_spec := (← newTimingSpec {
      base_cast_time := (.int 0)
      animation_lock := (.int 650)
      application_delay := (.int 620) })
    has_aoe := (.bool true) })

/-- class_skills/ranged/dnc.py:280-290 `fan_dance` -/
def fan_dance (env : Env) : Py PyVal := do
  let name : PyVal := (.str "Fan Dance")
  return (← newSkill {
    name := name
    is_GCD := (.bool false)
    damage_spec := (← newDamageSpec { potency := (← getPotency table env name) })
    timing_spec := (← newTimingSpec {
      base_cast_time := (.int 0)
      animation_lock := (.int 650)
      application_delay := (.int 620) }) })

/-- class_skills/ranged/dnc.py:292-303 `rising_windmill` -/
def rising_windmill (env : Env) : Py PyVal := do
  let name : PyVal := (.str "Rising Windmill")
  return (← newSkill {
    name := name
    is_GCD := (.bool true)
    damage_spec := (← newDamageSpec { potency := (← getPotency table env name) })
    timing_spec := (← newTimingSpec {
      base_cast_time := (.int 0)
      animation_lock := (.int 650)
      application_delay := (.int 620) })
    has_aoe := (.bool true) })

/-- class_skills/ranged/dnc.py:305-315 `fountainfaill` -/
def fountainfaill (env : Env) : Py PyVal := do
  let name : PyVal := (.str "Fountainfall")
  return (← newSkill {
    name := name
    is_GCD := (.bool true)
    damage_spec := (← newDamageSpec { potency := (← getPotency table env name) })
    timing_spec := (← newTimingSpec {
      base_cast_time := (.int 0)
      animation_lock := (.int 650)
      application_delay := (.int 1210) }) })

/-- class_skills/ranged/dnc.py:317-328 `bloodshower` -/
def bloodshower (env : Env) : Py PyVal := do
  let name : PyVal := (.str "Bloodshower")
  return (← newSkill {
    name := name
    is_GCD := (.bool true)
    damage_spec := (← newDamageSpec { potency := (← getPotency table env name) })
    timing_spec := (← newTimingSpec {
      base_cast_time := (.int 0)
      animation_lock := (.int 650)
      application_delay := (.int 620) })
    has_aoe := (.bool true) })

/-- class_skills/ranged/dnc.py:330-341 `fan_dance_ii` -/
def fan_dance_ii (env : Env) : Py PyVal := do
  let name : PyVal := (.str "Fan Dance II")
  return (← newSkill {
    name := name
    is_GCD := (.bool false)
    damage_spec := (← newDamageSpec { potency := (← getPotency table env name) })
    timing_spec := (← newTimingSpec {
      base_cast_time := (.int 0)
      animation_lock := (.int 650)
      application_delay := (.int 530) })
    has_aoe := (.bool true) })

/-- class_skills/ranged/dnc.py:343-359 `devilment` -/
def devilment (env : Env) : Py PyVal := do
  let name : PyVal := (.str "Devilment")
  return (← newSkill {
    name := name
    is_GCD := (.bool false)
    timing_spec := (mkDict [
      ((.str SimConsts.DEFAULT_CONDITION), (← instantTimingSpec)),
      ((.str "Dance Partner"), (← newTimingSpec { base_cast_time := (.int 0), animation_lock := (.int 0) }))])
    buff_spec := (← newStatusEffectSpec {
      crit_rate_add := (.float (20 / 100))
      dh_rate_add := (.float (20 / 100))
      duration := (← getSkillData table env name (.str "duration"))
      is_party_effect := (.bool true) }) })

/-- class_skills/ranged/dnc.py:361-377 `fan_dance_iii` -/
def fan_dance_iii (env : Env) : Py PyVal := do
  let name : PyVal := (.str "Fan Dance III")
  return (← newSkill {
    name := name
    is_GCD := (.bool false)
    damage_spec := (mkDict [
      ((.str SimConsts.DEFAULT_CONDITION), (← newDamageSpec { potency := (← getPotency table env name) }))])
    timing_spec := (← newTimingSpec {
      base_cast_time := (.int 0)
      animation_lock := (.int 650)
      application_delay := (.int 620) })
    has_aoe := (.bool true)
    aoe_dropoff := (.float (5 / 10)) })

/-- class_skills/ranged/dnc.py:379-654 `technical_finish` -/
def technical_finish (env : Env) : Py PyVal := do
  let mut res : PyVal := .unbound
  let mut name : PyVal := .unbound
  res := (.list [])
  name := (.str "Technical Finish")
  let tech4_followup : PyVal := (← newFollowUp {
    skill := (← newSkill {
      name := name
      is_GCD := (.bool false)
      buff_spec := (← newStatusEffectSpec {
        damage_mult := (.float (105 / 100))
        duration := (← PyVal.toInt (← PyVal.mul (.float (2045 / 100)) (.int 1000)))
        is_party_effect := (.bool true) }) })
    delay_after_parent_application := (.int 125)
    primary_target_only := (.bool true) })
  let tech3_followup : PyVal := (← newFollowUp {
    skill := (← newSkill {
      name := name
      is_GCD := (.bool false)
      buff_spec := (← newStatusEffectSpec {
        damage_mult := (.float (103 / 100))
        duration := (← PyVal.toInt (← PyVal.mul (.float (2045 / 100)) (.int 1000)))
        is_party_effect := (.bool true) }) })
    delay_after_parent_application := (.int 125)
    primary_target_only := (.bool true) })
  let tech2_followup : PyVal := (← newFollowUp {
    skill := (← newSkill {
      name := name
      is_GCD := (.bool false)
      buff_spec := (← newStatusEffectSpec {
        damage_mult := (.float (102 / 100))
        duration := (← PyVal.toInt (← PyVal.mul (.float (2045 / 100)) (.int 1000)))
        is_party_effect := (.bool true) }) })
    delay_after_parent_application := (.int 125)
    primary_target_only := (.bool true) })
  let tech1_followup : PyVal := (← newFollowUp {
    skill := (← newSkill {
      name := name
      is_GCD := (.bool false)
      buff_spec := (← newStatusEffectSpec {
        damage_mult := (.float (101 / 100))
        duration := (← PyVal.toInt (← PyVal.mul (.float (2045 / 100)) (.int 1000)))
        is_party_effect := (.bool true) }) })
    delay_after_parent_application := (.int 125)
    primary_target_only := (.bool true) })
  let tech4_longest_followup : PyVal := (← newFollowUp {
    skill := (← newSkill {
      name := name
      is_GCD := (.bool false)
      buff_spec := (← newStatusEffectSpec {
        damage_mult := (.float (105 / 100))
        duration := (← PyVal.toInt (← PyVal.mul (.float (2095 / 100)) (.int 1000)))
        is_party_effect := (.bool true) }) })
    delay_after_parent_application := (.int 125)
    primary_target_only := (.bool true) })
  let tech3_longest_followup : PyVal := (← newFollowUp {
    skill := (← newSkill {
      name := name
      is_GCD := (.bool false)
      buff_spec := (← newStatusEffectSpec {
        damage_mult := (.float (103 / 100))
        duration := (← PyVal.toInt (← PyVal.mul (.float (2095 / 100)) (.int 1000)))
        is_party_effect := (.bool true) }) })
    delay_after_parent_application := (.int 125)
    primary_target_only := (.bool true) })
  let tech2_longest_followup : PyVal := (← newFollowUp {
    skill := (← newSkill {
      name := name
      is_GCD := (.bool false)
      buff_spec := (← newStatusEffectSpec {
        damage_mult := (.float (102 / 100))
        duration := (← PyVal.toInt (← PyVal.mul (.float (2095 / 100)) (.int 1000)))
        is_party_effect := (.bool true) }) })
    delay_after_parent_application := (.int 125)
    primary_target_only := (.bool true) })
  let tech1_longest_followup : PyVal := (← newFollowUp {
    skill := (← newSkill {
      name := name
      is_GCD := (.bool false)
      buff_spec := (← newStatusEffectSpec {
        damage_mult := (.float (101 / 100))
        duration := (← PyVal.toInt (← PyVal.mul (.float (2095 / 100)) (.int 1000)))
        is_party_effect := (.bool true) }) })
    delay_after_parent_application := (.int 125)
    primary_target_only := (.bool true) })
  name := (.str "Technical Finish Remove buff")
  let tech_remove_followup : PyVal := (← newFollowUp {
    skill := (← newSkill {
      name := name
      is_GCD := (.bool false)
      buff_spec := (← newStatusEffectSpec {
        expires_status_effects := (.tuple [(.str "Technical Finish")])
        is_party_effect := (.bool true) }) })
    delay_after_parent_application := (.int 0) })
  let tech_finish_timing : PyVal := (← newTimingSpec {
    base_cast_time := (.int 0)
    gcd_base_recast_time := (.int 1500)
    affected_by_speed_stat := (.bool false)
    application_delay := (.int 535) })
  let tech_finish_status_effect_only_timing : PyVal := (← newTimingSpec {
    base_cast_time := (.int 0)
    gcd_base_recast_time := (.int 0)
    application_delay := (.int 0) })
  name := (.str "Quadruple Technical Finish")
  res := (← PyVal.append res (← newSkill {
    name := name
    is_GCD := (.bool true)
    has_aoe := (.bool true)
    damage_spec := (mkDict [
      ((.str SimConsts.DEFAULT_CONDITION), (← newDamageSpec {
        potency := (← getSkillData table env (.str "Technical Finish") (.str "Quadruple")) })),
      ((.str "Buff Only"), .none),
      ((.str "Remove Buff"), .none)])
    timing_spec := (mkDict [
      ((.str SimConsts.DEFAULT_CONDITION), tech_finish_timing),
      ((.str "Buff Only"), tech_finish_status_effect_only_timing),
      ((.str "Remove Buff"), tech_finish_status_effect_only_timing)])
    follow_up_skills := (mkDict [
      ((.str SimConsts.DEFAULT_CONDITION), (.tuple [tech4_followup])),
      ((.str "Longest"), (.tuple [tech4_longest_followup])),
      ((.str "Remove Buff"), (.tuple [tech_remove_followup]))])
    off_class_default_condition := (.str "Buff Only") }))
  name := (.str "Triple Technical Finish")
  res := (← PyVal.append res (← newSkill {
    name := name
    is_GCD := (.bool true)
    has_aoe := (.bool true)
    damage_spec := (mkDict [
      ((.str SimConsts.DEFAULT_CONDITION), (← newDamageSpec {
        potency := (← getSkillData table env (.str "Technical Finish") (.str "Triple")) })),
      ((.str "Buff Only"), .none),
      ((.str "Remove Buff"), .none)])
    timing_spec := (mkDict [
      ((.str SimConsts.DEFAULT_CONDITION), tech_finish_timing),
      ((.str "Buff Only"), tech_finish_status_effect_only_timing),
      ((.str "Remove Buff"), tech_finish_status_effect_only_timing)])
    follow_up_skills := (mkDict [
      ((.str SimConsts.DEFAULT_CONDITION), (.tuple [tech3_followup])),
      ((.str "Longest"), (.tuple [tech3_longest_followup])),
      ((.str "Remove Buff"), (.tuple [tech_remove_followup]))])
    off_class_default_condition := (.str "Buff Only") }))
  name := (.str "Double Technical Finish")
  res := (← PyVal.append res (← newSkill {
    name := name
    is_GCD := (.bool true)
    has_aoe := (.bool true)
    damage_spec := (mkDict [
      ((.str SimConsts.DEFAULT_CONDITION), (← newDamageSpec {
        potency := (← getSkillData table env (.str "Technical Finish") (.str "Double")) })),
      ((.str "Buff Only"), .none),
      ((.str "Remove Buff"), .none)])
    timing_spec := (mkDict [
      ((.str SimConsts.DEFAULT_CONDITION), tech_finish_timing),
      ((.str "Buff Only"), tech_finish_status_effect_only_timing),
      ((.str "Remove Buff"), tech_finish_status_effect_only_timing)])
    follow_up_skills := (mkDict [
      ((.str SimConsts.DEFAULT_CONDITION), (.tuple [tech2_followup])),
      ((.str "Longest"), (.tuple [tech2_longest_followup])),
      ((.str "Remove Buff"), (.tuple [tech_remove_followup]))])
    off_class_default_condition := (.str "Buff Only") }))
  name := (.str "Single Technical Finish")
  res := (← PyVal.append res (← newSkill {
    name := name
    is_GCD := (.bool true)
    has_aoe := (.bool true)
    damage_spec := (mkDict [
      ((.str SimConsts.DEFAULT_CONDITION), (← newDamageSpec {
        potency := (← getSkillData table env (.str "Technical Finish") (.str "Single")) })),
      ((.str "Buff Only"), .none),
      ((.str "Remove Buff"), .none)])
    timing_spec := (mkDict [
      ((.str SimConsts.DEFAULT_CONDITION), tech_finish_timing),
      ((.str "Buff Only"), tech_finish_status_effect_only_timing),
      ((.str "Remove Buff"), tech_finish_status_effect_only_timing)])
    follow_up_skills := (mkDict [
      ((.str SimConsts.DEFAULT_CONDITION), (.tuple [tech1_followup])),
      ((.str "Longest"), (.tuple [tech1_longest_followup])),
      ((.str "Remove Buff"), (.tuple [tech_remove_followup]))])
    off_class_default_condition := (.str "Buff Only") }))
  name := (.str "Technical Finish")
  res := (← PyVal.append res (← newSkill {
    name := name
    is_GCD := (.bool true)
    has_aoe := (.bool true)
    damage_spec := (mkDict [
      ((.str SimConsts.DEFAULT_CONDITION), (← newDamageSpec { potency := (.int 1200) })),
      ((.str "Log"), (← newDamageSpec {
        potency := (← getSkillData table env (.str "Technical Finish") (.str "Zero")) })),
      ((.str "Buff Only"), .none),
      ((.str "Remove Buff"), .none)])
    timing_spec := (mkDict [
      ((.str SimConsts.DEFAULT_CONDITION), tech_finish_timing),
      ((.str "Buff Only"), tech_finish_status_effect_only_timing),
      ((.str "Remove Buff"), tech_finish_status_effect_only_timing)])
    follow_up_skills := (mkDict [
      ((.str SimConsts.DEFAULT_CONDITION), (.tuple [tech4_followup])),
      ((.str "Longest"), (.tuple [tech4_longest_followup])),
      ((.str "Log"), (.tuple [])),
      ((.str "Log, Longest"), (.tuple [])),
      ((.str "Remove Buff"), (.tuple [tech_remove_followup])),
      ((.str "Log, Remove Buff"), (.tuple [tech_remove_followup]))])
    off_class_default_condition := (.str "Buff Only") }))
  return res

/-- class_skills/ranged/dnc.py:656-672 `saber_dance` -/
def saber_dance (env : Env) : Py PyVal := do
  let name : PyVal := (.str "Saber Dance")
  return (← newSkill {
    name := name
    is_GCD := (.bool true)
    damage_spec := (mkDict [
      ((.str SimConsts.DEFAULT_CONDITION), (← newDamageSpec { potency := (← getPotency table env name) }))])
    timing_spec := (← newTimingSpec {
      base_cast_time := (.int 0)
      animation_lock := (.int 650)
      application_delay := (.int 440) })
    has_aoe := (.bool true)
    aoe_dropoff := (.float (5 / 10)) })

/-- class_skills/ranged/dnc.py:674-695 `tillana` -/
def tillana (env : Env) : Py PyVal := do
  let name : PyVal := (.str "Tillana")
  let tillana_damage_follow_up : PyVal := (← newFollowUp {
    skill := (← newSkill {
      name := name
      damage_spec := (← newDamageSpec { potency := (← getPotency table env name) }) })
    delay_after_parent_application := (.int 840)
    primary_target_only := (.bool false) })
  return (← newSkill {
    name := name
    is_GCD := (.bool true)
    has_aoe := (.bool true)
    timing_spec := (← newTimingSpec {
      base_cast_time := (.int 0)
      gcd_base_recast_time := (.int 1500)
      affected_by_speed_stat := (.bool false) })
    follow_up_skills := (.tuple [tillana_damage_follow_up]) })

/-- class_skills/ranged/dnc.py:697-724 `finishing_move` -/
def finishing_move (env : Env) : Py PyVal := do
  if decide (env.level < 96) then
    return .none
  let name : PyVal := (.str "Finishing Move")
  let finishing_move_damage_follow_up : PyVal := (← newFollowUp {
    skill := (← newSkill {
      name := name
      damage_spec := (← newDamageSpec { potency := (← getPotency table env name) }) })
    delay_after_parent_application := (.int 2050)
    primary_target_only := (.bool false) })
  return (← newSkill {
    name := name
    is_GCD := (.bool true)
    timing_spec := (← newTimingSpec {
      base_cast_time := (.int 0)
      gcd_base_recast_time := (.int 1500)
      affected_by_speed_stat := (.bool false) })
    follow_up_skills := (.tuple [finishing_move_damage_follow_up, (← get_standard_finish2_follow_up env)])
    has_aoe := (.bool true) })

/-- class_skills/ranged/dnc.py:726-742 `fan_dance_iv` -/
def fan_dance_iv (env : Env) : Py PyVal := do
  let name : PyVal := (.str "Fan Dance IV")
  return (← newSkill {
    name := name
    is_GCD := (.bool false)
    damage_spec := (mkDict [
      ((.str SimConsts.DEFAULT_CONDITION), (← newDamageSpec { potency := (← getPotency table env name) }))])
    timing_spec := (← newTimingSpec {
      base_cast_time := (.int 0)
      animation_lock := (.int 650)
      application_delay := (.int 320) })
    has_aoe := (.bool true)
    aoe_dropoff := (.float (5 / 10)) })

/-- class_skills/ranged/dnc.py:744-762 `starfall_dance` -/
def starfall_dance (env : Env) : Py PyVal := do
  let name : PyVal := (.str "Starfall Dance")
  return (← newSkill {
    name := name
    is_GCD := (.bool true)
    damage_spec := (mkDict [
      ((.str SimConsts.DEFAULT_CONDITION), (← newDamageSpec {
        potency := (← getPotency table env name)
        guaranteed_crit := (.forced .forceYes)
        guaranteed_dh := (.forced .forceYes) }))])
    timing_spec := (← newTimingSpec {
      base_cast_time := (.int 0)
      animation_lock := (.int 650)
      application_delay := (.int 890) })
    has_aoe := (.bool true)
    aoe_dropoff := (.float (75 / 100)) })

/-- class_skills/ranged/dnc.py:764-782 `last_dance` -/
def last_dance (env : Env) : Py PyVal := do
  if decide (env.level < 92) then
    return .none
  let name : PyVal := (.str "Last Dance")
  return (← newSkill {
    name := name
    is_GCD := (.bool true)
    damage_spec := (mkDict [
      ((.str SimConsts.DEFAULT_CONDITION), (← newDamageSpec { potency := (← getPotency table env name) }))])
    timing_spec := (← newTimingSpec {
      base_cast_time := (.int 0)
      animation_lock := (.int 650)
      application_delay := (.int 1250) })
    has_aoe := (.bool true)
    aoe_dropoff := (.float (5 / 10)) })

/-- class_skills/ranged/dnc.py:784-802 `dance_of_the_dawn` -/
def dance_of_the_dawn (env : Env) : Py PyVal := do
  if decide (env.level < 100) then
    return .none
  let name : PyVal := (.str "Dance of the Dawn")
  return (← newSkill {
    name := name
    is_GCD := (.bool true)
    damage_spec := (mkDict [
      ((.str SimConsts.DEFAULT_CONDITION), (← newDamageSpec { potency := (← getPotency table env name) }))])
    timing_spec := (← newTimingSpec {
      base_cast_time := (.int 0)
      animation_lock := (.int 650)
      application_delay := (.int 2360) })
    has_aoe := (.bool true)
    aoe_dropoff := (.float (5 / 10)) })

/-- class_skills/ranged/dnc.py:808-819 `standard_step` -/
def standard_step (_env : Env) : Py PyVal := do
  let name : PyVal := (.str "Standard Step")
  return (← newSkill {
    name := name
    is_GCD := (.bool true)
    timing_spec := (← newTimingSpec {
      base_cast_time := (.int 0)
      gcd_base_recast_time := (.int 1500)
      affected_by_speed_stat := (.bool false) }) })

/-- class_skills/ranged/dnc.py:821-832 `technical_step` -/
def technical_step (_env : Env) : Py PyVal := do
  let name : PyVal := (.str "Technical Step")
  return (← newSkill {
    name := name
    is_GCD := (.bool true)
    timing_spec := (← newTimingSpec {
      base_cast_time := (.int 0)
      gcd_base_recast_time := (.int 1500)
      affected_by_speed_stat := (.bool false) }) })

/-- class_skills/ranged/dnc.py:834-838 `flourish` -/
def flourish (_env : Env) : Py PyVal := do
  return (← newSkill {
    name := (.str "Flourish")
    is_GCD := (.bool false)
    timing_spec := (← instantTimingSpec) })

/-- class_skills/ranged/dnc.py:840-848 `step_actions` -/
def step_actions (_env : Env) : Py PyVal := do
  let mut res : PyVal := .unbound
  res := (.list [])
  let step_timing : PyVal := (← newTimingSpec {
    base_cast_time := (.int 0)
    gcd_base_recast_time := (.int 1000)
    affected_by_speed_stat := (.bool false) })
  for step_name in (← PyVal.iter (.list [
    (.str "Emboite"), (.str "Entrechat"), (.str "Jete"), (.str "Pirouette"),
    (.str "Step Action")])) do
    res := (← PyVal.append res (← newSkill { name := step_name, is_GCD := (.bool true), timing_spec := step_timing }))
  return res

/-- class_skills/ranged/dnc.py:17-848 `DncSkills`; the methods in the order of `dir`. -/
def job (env : Env) : JobClass where
  jobClass := "DNC"
  skillMethods := [
    auto env,
    bladeshower env,
    bloodshower env,
    cascade env,
    dance_of_the_dawn env,
    devilment env,
    fan_dance env,
    fan_dance_ii env,
    fan_dance_iii env,
    fan_dance_iv env,
    finishing_move env,
    flourish env,
    fountain env,
    fountainfaill env,
    last_dance env,
    reverse_cascade env,
    rising_windmill env,
    saber_dance env,
    standard_finish env,
    standard_step env,
    starfall_dance env,
    step_actions env,
    technical_finish env,
    technical_step env,
    tillana env,
    windmill env]

end Ama.GameData.Dnc
