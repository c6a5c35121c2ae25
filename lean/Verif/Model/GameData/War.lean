import Verif.Model.GameData.Values

/-!
# WAR

Model of `simulator/game_data/class_skills/tank/war.py` and `simulator/game_data/class_skills/tank/war_data.py`, written by
`tools/translate.py`: one function per method.  Paths in the comments are relative to
`simulator/game_data`.
-/

namespace Ama.GameData.War

open PyVal

/-- class_skills/tank/war_data.py:7-43 `ALL_DATA` -/
def table : Table := [
  ("Heavy Swing", [
    (90, [("potency", [(.p655, .ok (.int 200))])]),
    (100, [("potency", [(.p70, .ok (.int 220))])])]),
  ("Maim", [
    (90, [
      ("potency", [(.p655, .ok (.int 300))]),
      ("potency_no_combo", [(.p655, .ok (.int 150))])]),
    (100, [
      ("potency", [(.p70, .ok (.int 340))]),
      ("potency_no_combo", [(.p70, .ok (.int 190))])])]),
  ("Storm's Path", [
    (90, [
      ("potency", [(.p655, .ok (.int 440))]),
      ("potency_no_combo", [(.p655, .ok (.int 160))])]),
    (100, [
      ("potency", [(.p70, .ok (.int 480))]),
      ("potency_no_combo", [(.p70, .ok (.int 200))])])]),
  ("Storm's Eye", [
    (90, [
      ("potency", [(.p655, .ok (.int 440))]),
      ("potency_no_combo", [(.p655, .ok (.int 160))])]),
    (100, [
      ("potency", [(.p70, .ok (.int 480))]),
      ("potency_no_combo", [(.p70, .ok (.int 200))])])]),
  ("Upheaval", [
    (90, [("potency", [(.p655, .ok (.int 400))])]),
    (100, [("potency", [(.p70, .ok (.int 400))])])]),
  ("Onslaught", [
    (90, [("potency", [(.p655, .ok (.int 150))])]),
    (100, [("potency", [(.p70, .ok (.int 150))])])]),
  ("Fell Cleave", [
    (90, [("potency", [(.p655, .ok (.int 520))])]),
    (100, [("potency", [(.p70, .ok (.int 580))])])]),
  ("Primal Rend", [
    (90, [("potency", [(.p655, .ok (.int 700))])]),
    (100, [("potency", [(.p70, .ok (.int 700))])])]),
  ("Inner Chaos", [
    (90, [("potency", [(.p655, .ok (.int 660))])]),
    (100, [("potency", [(.p655, .ok (.int 660))])])]),
  ("Chaotic Cyclone", [
    (90, [("potency", [(.p655, .ok (.int 320)), (.p70, .ok (.int 300))])]),
    (100, [("potency", [(.p70, .ok (.int 300))])])]),
  ("Tomahawk", [
    (90, [("potency", [(.p655, .ok (.int 150))])]),
    (100, [("potency", [(.p70, .ok (.int 150))])])]),
  ("Overpower", [
    (90, [("potency", [(.p655, .ok (.int 110))])]),
    (100, [("potency", [(.p70, .ok (.int 110))])])]),
  ("Mythril Tempest", [
    (90, [
      ("potency", [(.p655, .ok (.int 150)), (.p70, .ok (.int 140))]),
      ("potency_no_combo", [(.p655, .ok (.int 100))])]),
    (100, [
      ("potency", [(.p70, .ok (.int 140))]),
      ("potency_no_combo", [(.p70, .ok (.int 100))])])]),
  ("Orogeny", [
    (90, [("potency", [(.p655, .ok (.int 150))])]),
    (100, [("potency", [(.p70, .ok (.int 150))])])]),
  ("Decimate", [
    (90, [("potency", [(.p655, .ok (.int 200)), (.p70, .ok (.int 180))])]),
    (100, [("potency", [(.p70, .ok (.int 180))])])]),
  ("Vengeance", [(90, [("potency", [(.p655, .ok (.int 55))])])]),
  ("Primal Wrath", [(100, [("potency", [(.p70, .ok (.int 700))])])]),
  ("Primal Ruination", [
    (100, [("potency", [(.p70, .ok (.int 740)), (.p701, .ok (.int 780))])])]),
  ("Damnation", [(100, [("potency", [(.p70, .ok (.int 55))])])])]

/-- class_skills/tank/war.py:24-37 `__surging_tempest_followup` -/
def surging_tempest_followup (_env : Env) : Py PyVal := do
  return (← newFollowUp {
    skill := (← newSkill {
      name := (.str "Surging Tempest")
      buff_spec := (← newStatusEffectSpec {
        duration := (.int 30000)
        max_duration := (.int 60000)
        damage_mult := (.float (110 / 100))
        add_to_skill_modifier_condition := (.bool true) }) })
    delay_after_parent_application := (.int 0)
    primary_target_only := (.bool true) })

/-- class_skills/tank/war.py:39-49 `auto` -/
def auto (_env : Env) : Py PyVal := do
  let name : PyVal := (.str "Auto")
  return (← newSkill {
    name := name
    is_GCD := (.bool false)
    timing_spec := (← autoTimingSpec)
    damage_spec := (← newDamageSpec {
      potency := (.int 90)
      damage_class := (.damageClass .auto)
      trait_damage_mult_override := (.int 1) }) })

/-- class_skills/tank/war.py:51-62 `heavy_swing` -/
def heavy_swing (env : Env) : Py PyVal := do
  let name : PyVal := (.str "Heavy Swing")
  return (← newSkill {
    name := name
    is_GCD := (.bool true)
    timing_spec := (← newTimingSpec {
      base_cast_time := (.int 0)
      animation_lock := (.int 650)
      application_delay := (.int 532) })
    damage_spec := (← newDamageSpec { potency := (← getPotency table env name) })
    combo_spec := (.tuple [(← newComboSpec {})]) })

/-- class_skills/tank/war.py:64-82 `maim` -/
def maim (env : Env) : Py PyVal := do
  let name : PyVal := (.str "Maim")
  return (← newSkill {
    name := name
    is_GCD := (.bool true)
    timing_spec := (← newTimingSpec {
      base_cast_time := (.int 0)
      animation_lock := (.int 650)
      application_delay := (.int 623) })
    combo_spec := (.tuple [(← newComboSpec { combo_actions := (.tuple [(.str "Heavy Swing")]) })])
    damage_spec := (mkDict [
      ((.str SimConsts.DEFAULT_CONDITION), (← newDamageSpec { potency := (← getPotency table env name) })),
      ((.str "No Combo"), (← newDamageSpec { potency := (← getPotencyNoCombo table env name) }))]) })

/-- class_skills/tank/war.py:84-102 `storms_path` -/
def storms_path (env : Env) : Py PyVal := do
  let name : PyVal := (.str "Storm's Path")
  return (← newSkill {
    name := name
    is_GCD := (.bool true)
    timing_spec := (← newTimingSpec {
      base_cast_time := (.int 0)
      animation_lock := (.int 650)
      application_delay := (.int 1515) })
    combo_spec := (.tuple [(← newComboSpec { combo_actions := (.tuple [(.str "Maim")]) })])
    damage_spec := (mkDict [
      ((.str SimConsts.DEFAULT_CONDITION), (← newDamageSpec { potency := (← getPotency table env name) })),
      ((.str "No Combo"), (← newDamageSpec { potency := (← getPotencyNoCombo table env name) }))]) })

/-- class_skills/tank/war.py:104-153 `storms_eye` -/
def storms_eye (env : Env) : Py PyVal := do
  let surging_tempest_inital_follow_up : PyVal := (← newFollowUp {
    skill := (← newSkill {
      name := (.str "Surging Tempest")
      buff_spec := (← newStatusEffectSpec {
        duration := (.int 31600)
        max_duration := (.int 60000)
        damage_mult := (.float (110 / 100))
        add_to_skill_modifier_condition := (.bool true) }) })
    delay_after_parent_application := (.int 0)
    primary_target_only := (.bool true) })
  let name : PyVal := (.str "Storm's Eye")
  let storms_eye_damage_follow_up : PyVal := (← newFollowUp {
    skill := (← newSkill {
      name := name
      damage_spec := (← newDamageSpec { potency := (← getPotency table env name) }) })
    delay_after_parent_application := (.int 1649) })
  let storms_eye_damage_no_combo_follow_up : PyVal := (← newFollowUp {
    skill := (← newSkill {
      name := name
      damage_spec := (← newDamageSpec { potency := (← getPotencyNoCombo table env name) }) })
    delay_after_parent_application := (.int 1649) })
  return (← newSkill {
    name := name
    is_GCD := (.bool true)
    timing_spec := (← newTimingSpec { base_cast_time := (.int 0), animation_lock := (.int 650) })
    combo_spec := (.tuple [(← newComboSpec { combo_actions := (.tuple [(.str "Maim")]) })])
    follow_up_skills := (mkDict [
      ((.str SimConsts.DEFAULT_CONDITION), (.tuple [storms_eye_damage_follow_up, surging_tempest_inital_follow_up])),
      ((.str "Surging Tempest"), (.tuple [storms_eye_damage_follow_up, (← surging_tempest_followup env)])),
      ((.str "No Combo"), (.tuple [storms_eye_damage_no_combo_follow_up]))]) })

/-- class_skills/tank/war.py:155-187 `inner_release` -/
def inner_release (_env : Env) : Py PyVal := do
  let mut name : PyVal := .unbound
  name := (.str "Surging Tempest")
  let ir_surging_tempest_follow_up : PyVal := (← newFollowUp {
    skill := (← newSkill {
      name := name
      buff_spec := (← newStatusEffectSpec {
        duration := (.int 10000)
        max_duration := (.int 60000)
        damage_mult := (.float (110 / 100))
        extend_only := (.bool true)
        add_to_skill_modifier_condition := (.bool true) }) })
    delay_after_parent_application := (.int 0) })
  name := (.str "Inner Release")
  return (← newSkill {
    name := name
    is_GCD := (.bool false)
    timing_spec := (← newTimingSpec {
      base_cast_time := (.int 0)
      animation_lock := (.int 650)
      application_delay := (.int 0) })
    buff_spec := (← newStatusEffectSpec {
      guaranteed_crit := (.forced .forceYes)
      guaranteed_dh := (.forced .forceYes)
      num_uses := (.int 3)
      duration := (← PyVal.mul (.int 30) (.int 1000))
      skill_allowlist := (.tuple [(.str "Fell Cleave"), (.str "Decimate")]) })
    follow_up_skills := (.tuple [ir_surging_tempest_follow_up]) })

/-- class_skills/tank/war.py:189-199 `upheaval` -/
def upheaval (env : Env) : Py PyVal := do
  let name : PyVal := (.str "Upheaval")
  return (← newSkill {
    name := name
    is_GCD := (.bool false)
    timing_spec := (← newTimingSpec {
      base_cast_time := (.int 0)
      animation_lock := (.int 650)
      application_delay := (.int 623) })
    damage_spec := (← newDamageSpec { potency := (← getPotency table env name) }) })

/-- class_skills/tank/war.py:201-211 `onslaught` -/
def onslaught (env : Env) : Py PyVal := do
  let name : PyVal := (.str "Onslaught")
  return (← newSkill {
    name := name
    is_GCD := (.bool false)
    timing_spec := (← newTimingSpec {
      base_cast_time := (.int 0)
      animation_lock := (.int 650)
      application_delay := (.int 667) })
    damage_spec := (← newDamageSpec { potency := (← getPotency table env name) }) })

/-- class_skills/tank/war.py:213-223 `fell_cleave` -/
def fell_cleave (env : Env) : Py PyVal := do
  let name : PyVal := (.str "Fell Cleave")
  return (← newSkill {
    name := name
    is_GCD := (.bool true)
    timing_spec := (← newTimingSpec {
      base_cast_time := (.int 0)
      animation_lock := (.int 650)
      application_delay := (.int 623) })
    damage_spec := (← newDamageSpec { potency := (← getPotency table env name) }) })

/-- class_skills/tank/war.py:225-243 `primal_rend` -/
def primal_rend (env : Env) : Py PyVal := do
  let name : PyVal := (.str "Primal Rend")
  return (← newSkill {
    name := name
    is_GCD := (.bool true)
    timing_spec := (← newTimingSpec {
      base_cast_time := (.int 0)
      animation_lock := (.int 1300)
      application_delay := (.int 1160) })
    damage_spec := (mkDict [
      ((.str SimConsts.DEFAULT_CONDITION), (← newDamageSpec {
        potency := (← getPotency table env name)
        guaranteed_crit := (.forced .forceYes)
        guaranteed_dh := (.forced .forceYes) }))])
    has_aoe := (.bool true)
    aoe_dropoff := (.float (7 / 10)) })

/-- class_skills/tank/war.py:245-259 `inner_chaos` -/
def inner_chaos (env : Env) : Py PyVal := do
  let name : PyVal := (.str "Inner Chaos")
  return (← newSkill {
    name := name
    is_GCD := (.bool true)
    timing_spec := (← newTimingSpec {
      base_cast_time := (.int 0)
      animation_lock := (.int 650)
      application_delay := (.int 937) })
    damage_spec := (← newDamageSpec {
      potency := (← getPotency table env name)
      guaranteed_crit := (.forced .forceYes)
      guaranteed_dh := (.forced .forceYes) }) })

/-- class_skills/tank/war.py:261-276 `chaotic_cyclone` -/
def chaotic_cyclone (env : Env) : Py PyVal := do
  let name : PyVal := (.str "Chaotic Cyclone")
  return (← newSkill {
    name := name
    is_GCD := (.bool true)
    timing_spec := (← newTimingSpec {
      base_cast_time := (.int 0)
      animation_lock := (.int 650)
      application_delay := (.int 1430) })
    damage_spec := (← newDamageSpec {
      potency := (← getPotency table env name)
      guaranteed_crit := (.forced .forceYes)
      guaranteed_dh := (.forced .forceYes) })
    has_aoe := (.bool true) })

/-- class_skills/tank/war.py:278-288 `tomahawk` -/
def tomahawk (env : Env) : Py PyVal := do
  let name : PyVal := (.str "Tomahawk")
  return (← newSkill {
    name := name
    is_GCD := (.bool true)
    timing_spec := (← newTimingSpec {
      base_cast_time := (.int 0)
      animation_lock := (.int 650)
      application_delay := (.int 713) })
    damage_spec := (← newDamageSpec { potency := (← getPotency table env name) }) })

/-- class_skills/tank/war.py:290-302 `overpower` -/
def overpower (env : Env) : Py PyVal := do
  let name : PyVal := (.str "Overpower")
  return (← newSkill {
    name := name
    is_GCD := (.bool true)
    timing_spec := (← newTimingSpec {
      base_cast_time := (.int 0)
      animation_lock := (.int 650)
      application_delay := (.int 625) })
    combo_spec := (.tuple [(← newComboSpec {})])
    damage_spec := (← newDamageSpec { potency := (← getPotency table env name) })
    has_aoe := (.bool true) })

/-- class_skills/tank/war.py:304-357 `mythril_tempest` -/
def mythril_tempest (env : Env) : Py PyVal := do
  let mut name : PyVal := .unbound
  name := (.str "Surging Tempest")
  let mythril_tempest_inital_follow_up : PyVal := (← newFollowUp {
    skill := (← newSkill {
      name := name
      buff_spec := (← newStatusEffectSpec {
        duration := (.int 30470)
        max_duration := (.int 60000)
        damage_mult := (.float (110 / 100))
        add_to_skill_modifier_condition := (.bool true) }) })
    delay_after_parent_application := (.int 0)
    primary_target_only := (.bool true) })
  name := (.str "Mythril Tempest")
  let mythril_tempest_damage_follow_up : PyVal := (← newFollowUp {
    skill := (← newSkill {
      name := name
      damage_spec := (← newDamageSpec { potency := (← getPotency table env name) }) })
    delay_after_parent_application := (.int 490)
    primary_target_only := (.bool false) })
  let mythril_tempest_damage_no_combo_follow_up : PyVal := (← newFollowUp {
    skill := (← newSkill {
      name := name
      damage_spec := (← newDamageSpec { potency := (← getPotencyNoCombo table env name) }) })
    delay_after_parent_application := (.int 490)
    primary_target_only := (.bool false) })
  return (← newSkill {
    name := name
    is_GCD := (.bool true)
    timing_spec := (← newTimingSpec { base_cast_time := (.int 0), animation_lock := (.int 650) })
    combo_spec := (.tuple [(← newComboSpec { combo_actions := (.tuple [(.str "Overpower")]) })])
    follow_up_skills := (mkDict [
      ((.str SimConsts.DEFAULT_CONDITION), (.tuple [mythril_tempest_damage_follow_up, mythril_tempest_inital_follow_up])),
      ((.str "Surging Tempest"), (.tuple [mythril_tempest_damage_follow_up, (← surging_tempest_followup env)])),
      ((.str "No Combo"), (.tuple [mythril_tempest_damage_no_combo_follow_up]))])
    has_aoe := (.bool true) })

/-- class_skills/tank/war.py:359-370 `orogeny` -/
def orogeny (env : Env) : Py PyVal := do
  let name : PyVal := (.str "Orogeny")
  return (← newSkill {
    name := name
    is_GCD := (.bool false)
    timing_spec := (← newTimingSpec {
      base_cast_time := (.int 0)
      animation_lock := (.int 650)
      application_delay := (.int 668) })
    damage_spec := (← newDamageSpec { potency := (← getPotency table env name) })
    has_aoe := (.bool true) })

/-- class_skills/tank/war.py:372-383 `decimate` -/
def decimate (env : Env) : Py PyVal := do
  let name : PyVal := (.str "Decimate")
  return (← newSkill {
    name := name
    is_GCD := (.bool true)
    timing_spec := (← newTimingSpec {
      base_cast_time := (.int 0)
      animation_lock := (.int 650)
      application_delay := (.int 1831) })
    damage_spec := (← newDamageSpec { potency := (← getPotency table env name) })
    has_aoe := (.bool true) })

/-- class_skills/tank/war.py:385-404 `vengance` -/
def vengance (env : Env) : Py PyVal := do
  if decide (env.level ≥ 92) then
    return .none
  let name : PyVal := (.str "Vengeance")
  return (← newSkill {
    name := name
    is_GCD := (.bool false)
    damage_spec := (mkDict [
      ((.str SimConsts.DEFAULT_CONDITION), .none),
      ((.str "Retaliation"), (← newDamageSpec { potency := (← getPotency table env name) }))])
    timing_spec := (mkDict [
      ((.str SimConsts.DEFAULT_CONDITION), (← instantTimingSpec)),
      ((.str "Retaliation"), (← newTimingSpec {
        base_cast_time := (.int 0)
        animation_lock := (.int 0)
        application_delay := (.int 534) }))]) })

/-- class_skills/tank/war.py:406-425 `damnation` -/
def damnation (env : Env) : Py PyVal := do
  if decide (env.level < 92) then
    return .none
  let name : PyVal := (.str "Damnation")
  return (← newSkill {
    name := name
    is_GCD := (.bool false)
    damage_spec := (mkDict [
      ((.str SimConsts.DEFAULT_CONDITION), .none),
      ((.str "Retaliation"), (← newDamageSpec { potency := (← getPotency table env name) }))])
    timing_spec := (mkDict [
      ((.str SimConsts.DEFAULT_CONDITION), (← instantTimingSpec)),
      ((.str "Retaliation"), (← newTimingSpec {
        base_cast_time := (.int 0)
        animation_lock := (.int 0)
        application_delay := (.int 534) }))]) })

/-- class_skills/tank/war.py:427-445 `primal_wrath` -/
def primal_wrath (env : Env) : Py PyVal := do
  if decide (env.level < 96) then
    return .none
  let name : PyVal := (.str "Primal Wrath")
  return (← newSkill {
    name := name
    is_GCD := (.bool false)
    timing_spec := (← newTimingSpec {
      base_cast_time := (.int 0)
      animation_lock := (.int 650)
      application_delay := (.int 1150) })
    damage_spec := (mkDict [
      ((.str SimConsts.DEFAULT_CONDITION), (← newDamageSpec { potency := (← getPotency table env name) }))])
    has_aoe := (.bool true)
    aoe_dropoff := (.float (7 / 10)) })

/-- class_skills/tank/war.py:447-467 `primal_ruination` -/
def primal_ruination (env : Env) : Py PyVal := do
  if decide (env.level < 100) then
    return .none
  let name : PyVal := (.str "Primal Ruination")
  return (← newSkill {
    name := name
    is_GCD := (.bool true)
    timing_spec := (← newTimingSpec {
      base_cast_time := (.int 0)
      animation_lock := (.int 1300)
      application_delay := (.int 1060) })
    damage_spec := (mkDict [
      ((.str SimConsts.DEFAULT_CONDITION), (← newDamageSpec {
        potency := (← getPotency table env name)
        guaranteed_crit := (.forced .forceYes)
        guaranteed_dh := (.forced .forceYes) }))])
    has_aoe := (.bool true)
    aoe_dropoff := (.float (7 / 10)) })

/-- class_skills/tank/war.py:472-476 `infuriate` -/
def infuriate (_env : Env) : Py PyVal := do
  return (← newSkill {
    name := (.str "Infuriate")
    is_GCD := (.bool false)
    timing_spec := (← instantTimingSpec) })

/-- class_skills/tank/war.py:478-482 `defiance` -/
def defiance (_env : Env) : Py PyVal := do
  return (← newSkill {
    name := (.str "Defiance")
    is_GCD := (.bool false)
    timing_spec := (← instantTimingSpec) })

/-- class_skills/tank/war.py:484-488 `thrill` -/
def thrill (_env : Env) : Py PyVal := do
  return (← newSkill {
    name := (.str "Thrill of Battle")
    is_GCD := (.bool false)
    timing_spec := (← instantTimingSpec) })

/-- class_skills/tank/war.py:490-494 `holmgang` -/
def holmgang (_env : Env) : Py PyVal := do
  return (← newSkill {
    name := (.str "Holmgang")
    is_GCD := (.bool false)
    timing_spec := (← instantTimingSpec) })

/-- class_skills/tank/war.py:496-500 `equilibrium` -/
def equilibrium (_env : Env) : Py PyVal := do
  return (← newSkill {
    name := (.str "Equilibrium")
    is_GCD := (.bool false)
    timing_spec := (← instantTimingSpec) })

/-- class_skills/tank/war.py:502-506 `shake` -/
def shake (_env : Env) : Py PyVal := do
  return (← newSkill {
    name := (.str "Shake It Off")
    is_GCD := (.bool false)
    timing_spec := (← instantTimingSpec) })

/-- class_skills/tank/war.py:508-512 `nascent` -/
def nascent (_env : Env) : Py PyVal := do
  return (← newSkill {
    name := (.str "Nascent Flash")
    is_GCD := (.bool false)
    timing_spec := (← instantTimingSpec) })

/-- class_skills/tank/war.py:514-518 `bloodwhetting` -/
def bloodwhetting (_env : Env) : Py PyVal := do
  return (← newSkill {
    name := (.str "Bloodwhetting")
    is_GCD := (.bool false)
    timing_spec := (← instantTimingSpec) })

/-- class_skills/tank/war.py:520-522 `rampart` -/
def rampart (_env : Env) : Py PyVal := do
  return (← newSkill {
    name := (.str "Rampart")
    is_GCD := (.bool false)
    timing_spec := (← instantTimingSpec) })

/-- class_skills/tank/war.py:524-526 `provoke` -/
def provoke (_env : Env) : Py PyVal := do
  return (← newSkill {
    name := (.str "Provoke")
    is_GCD := (.bool false)
    timing_spec := (← instantTimingSpec) })

/-- class_skills/tank/war.py:528-532 `reprisal` -/
def reprisal (_env : Env) : Py PyVal := do
  return (← newSkill {
    name := (.str "Reprisal")
    is_GCD := (.bool false)
    timing_spec := (← instantTimingSpec) })

/-- class_skills/tank/war.py:534-538 `arms_length` -/
def arms_length (_env : Env) : Py PyVal := do
  return (← newSkill {
    name := (.str "Arm's Length")
    is_GCD := (.bool false)
    timing_spec := (← instantTimingSpec) })

/-- class_skills/tank/war.py:540-542 `shirk` -/
def shirk (_env : Env) : Py PyVal := do
  return (← newSkill {
    name := (.str "Shirk")
    is_GCD := (.bool false)
    timing_spec := (← instantTimingSpec) })

/-- class_skills/tank/war.py:18-542 `WarSkills`; the methods in the order of `dir`. -/
def job (env : Env) : JobClass where
  jobClass := "WAR"
  skillMethods := [
    arms_length env,
    auto env,
    bloodwhetting env,
    chaotic_cyclone env,
    damnation env,
    decimate env,
    defiance env,
    equilibrium env,
    fell_cleave env,
    heavy_swing env,
    holmgang env,
    infuriate env,
    inner_chaos env,
    inner_release env,
    maim env,
    mythril_tempest env,
    nascent env,
    onslaught env,
    orogeny env,
    overpower env,
    primal_rend env,
    primal_ruination env,
    primal_wrath env,
    provoke env,
    rampart env,
    reprisal env,
    shake env,
    shirk env,
    storms_eye env,
    storms_path env,
    thrill env,
    tomahawk env,
    upheaval env,
    vengance env]

end Ama.GameData.War
