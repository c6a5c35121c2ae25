import Verif.Model.GameData.Values

/-!
# DRK

Model of `simulator/game_data/class_skills/tank/drk.py` and `simulator/game_data/class_skills/tank/drk_data.py`, written by
`tools/translate.py`: one function per method.  Paths in the comments are relative to
`simulator/game_data`.
-/

namespace Ama.GameData.Drk

open PyVal

/-- class_skills/tank/drk_data.py:7-71 `ALL_DATA` -/
def table : Table := [
  ("Hard Slash", [
    (90, [("potency", [(.p655, .ok (.int 170)), (.p705, .ok (.int 180))])]),
    (100, [("potency", [(.p70, .ok (.int 260)), (.p705, .ok (.int 300))])])]),
  ("Syphon Strike", [
    (90, [
      ("potency", [(.p655, .ok (.int 260))]),
      ("potency_no_combo", [(.p655, .ok (.int 120))])]),
    (100, [
      ("potency", [(.p70, .ok (.int 360)), (.p705, .ok (.int 380))]),
      ("potency_no_combo", [(.p70, .ok (.int 220)), (.p705, .ok (.int 240))])])]),
  ("Unleash", [
    (90, [("potency", [(.p655, .ok (.int 120))])]),
    (100, [("potency", [(.p70, .ok (.int 120))])])]),
  ("Unmend", [
    (90, [("potency", [(.p655, .ok (.int 150))])]),
    (100, [("potency", [(.p70, .ok (.int 150))])])]),
  ("Souleater", [
    (90, [
      ("potency", [(.p655, .ok (.int 340)), (.p705, .ok (.int 360))]),
      ("potency_no_combo", [(.p655, .ok (.int 120)), (.p705, .ok (.int 140))])]),
    (100, [
      ("potency", [(.p70, .ok (.int 460)), (.p705, .ok (.int 480))]),
      ("potency_no_combo", [(.p70, .ok (.int 240)), (.p705, .ok (.int 260))])])]),
  ("Flood of Shadow", [
    (90, [("potency", [(.p655, .ok (.int 160))])]),
    (100, [("potency", [(.p70, .ok (.int 160))])])]),
  ("Stalwart Soul", [
    (90, [
      ("potency", [(.p655, .ok (.int 140))]),
      ("potency_no_combo", [(.p655, .ok (.int 100))])]),
    (100, [
      ("potency", [(.p70, .ok (.int 160))]),
      ("potency_no_combo", [(.p70, .ok (.int 120))])])]),
  ("Edge of Shadow", [
    (90, [("potency", [(.p655, .ok (.int 460))])]),
    (100, [("potency", [(.p70, .ok (.int 460))])])]),
  ("Salted Earth (dot)", [
    (90, [("potency", [(.p655, .ok (.int 50))])]),
    (100, [("potency", [(.p70, .ok (.int 50))])])]),
  ("Salt and Darkness", [
    (90, [("potency", [(.p655, .ok (.int 500))])]),
    (100, [("potency", [(.p70, .ok (.int 500))])])]),
  ("Plunge", [(90, [("potency", [(.p655, .ok (.int 150))])])]),
  ("Abyssal Drain", [
    (90, [("potency", [(.p655, .ok (.int 240))])]),
    (100, [("potency", [(.p70, .ok (.int 240))])])]),
  ("Carve and Spit", [
    (90, [("potency", [(.p655, .ok (.int 510))])]),
    (100, [("potency", [(.p70, .ok (.int 510)), (.p705, .ok (.int 540))])])]),
  ("Bloodspiller", [
    (90, [("potency", [(.p655, .ok (.int 500))])]),
    (100, [("potency", [(.p70, .ok (.int 580)), (.p71, .ok (.int 600))])])]),
  ("Quietus", [
    (90, [("potency", [(.p655, .ok (.int 200))])]),
    (100, [("potency", [(.p70, .ok (.int 240))])])]),
  ("Shadowbringer", [
    (90, [("potency", [(.p655, .ok (.int 600))])]),
    (100, [("potency", [(.p70, .ok (.int 600))])])]),
  ("Living Shadow", [
    (90, [
      ("potency_base", [(.p655, .ok (.int 350)), (.p70, .ok (.int 420))]),
      ("potency_shadowbringer", [(.p655, .ok (.int 500)), (.p70, .ok (.int 570))]),
      ("potency_disesteem", [(.p70, .ok (.int 620))])]),
    (100, [
      ("potency_base", [(.p70, .ok (.int 420))]),
      ("potency_shadowbringer", [(.p70, .ok (.int 570))]),
      ("potency_disesteem", [(.p70, .ok (.int 620))])])]),
  ("Scarlet Delirium", [
    (100, [("potency", [(.p70, .ok (.int 600)), (.p71, .ok (.int 620))])])]),
  ("Comeuppance", [(100, [("potency", [(.p70, .ok (.int 700)), (.p71, .ok (.int 720))])])]),
  ("Torcleaver", [(100, [("potency", [(.p70, .ok (.int 800)), (.p71, .ok (.int 820))])])]),
  ("Impalement", [(100, [("potency", [(.p70, .ok (.int 320))])])]),
  ("Disesteem", [(100, [("potency", [(.p70, .ok (.int 800)), (.p705, .ok (.int 1000))])])])]

/-- class_skills/tank/drk.py:21-28 `__get_darkside_buff` -/
def get_darkside_buff (_env : Env) : Py PyVal := do
  let name : PyVal := (.str "Darkside")
  return (← newSkill {
    name := name
    buff_spec := (← newStatusEffectSpec {
      duration := (.int 30000)
      max_duration := (.int 60000)
      damage_mult := (.float (110 / 100)) }) })

/-- class_skills/tank/drk.py:30-40 `auto` -/
def auto (_env : Env) : Py PyVal := do
  let name : PyVal := (.str "Auto")
  return (← newSkill {
    name := name
    is_GCD := (.bool false)
    timing_spec := (← autoTimingSpec)
    damage_spec := (← newDamageSpec {
      potency := (.int 90)
      damage_class := (.damageClass .auto)
      trait_damage_mult_override := (.int 1) }) })

/-- class_skills/tank/drk.py:42-53 `hard_slash` -/
def hard_slash (env : Env) : Py PyVal := do
  let name : PyVal := (.str "Hard Slash")
  return (← newSkill {
    name := name
    is_GCD := (.bool true)
    combo_spec := (.tuple [(← newComboSpec {})])
    damage_spec := (← newDamageSpec { potency := (← getPotency table env name) })
    timing_spec := (← newTimingSpec {
      base_cast_time := (.int 0)
      animation_lock := (.int 650)
      application_delay := (.int 581) }) })

/-- class_skills/tank/drk.py:55-73 `syphon_strike` -/
def syphon_strike (env : Env) : Py PyVal := do
  let name : PyVal := (.str "Syphon Strike")
  return (← newSkill {
    name := name
    is_GCD := (.bool true)
    combo_spec := (.tuple [(← newComboSpec { combo_actions := (.tuple [(.str "Hard Slash")]) })])
    damage_spec := (mkDict [
      ((.str SimConsts.DEFAULT_CONDITION), (← newDamageSpec { potency := (← getPotency table env name) })),
      ((.str "No Combo"), (← newDamageSpec { potency := (← getPotencyNoCombo table env name) }))])
    timing_spec := (← newTimingSpec {
      base_cast_time := (.int 0)
      animation_lock := (.int 650)
      application_delay := (.int 624) }) })

/-- class_skills/tank/drk.py:75-87 `unleash` -/
def unleash (env : Env) : Py PyVal := do
  let name : PyVal := (.str "Unleash")
  return (← newSkill {
    name := name
    is_GCD := (.bool true)
    combo_spec := (.tuple [(← newComboSpec {})])
    damage_spec := (← newDamageSpec { potency := (← getPotency table env name) })
    timing_spec := (← newTimingSpec {
      base_cast_time := (.int 0)
      animation_lock := (.int 650)
      application_delay := (.int 712) })
    has_aoe := (.bool true) })

/-- class_skills/tank/drk.py:89-99 `unmend` -/
def unmend (env : Env) : Py PyVal := do
  let name : PyVal := (.str "Unmend")
  return (← newSkill {
    name := name
    is_GCD := (.bool true)
    damage_spec := (← newDamageSpec { potency := (← getPotency table env name) })
    timing_spec := (← newTimingSpec {
      base_cast_time := (.int 0)
      animation_lock := (.int 650)
      application_delay := (.int 978) }) })

/-- class_skills/tank/drk.py:101-119 `souleater` -/
def souleater (env : Env) : Py PyVal := do
  let name : PyVal := (.str "Souleater")
  return (← newSkill {
    name := name
    is_GCD := (.bool true)
    combo_spec := (.tuple [(← newComboSpec { combo_actions := (.tuple [(.str "Syphon Strike")]) })])
    damage_spec := (mkDict [
      ((.str SimConsts.DEFAULT_CONDITION), (← newDamageSpec { potency := (← getPotency table env name) })),
      ((.str "No Combo"), (← newDamageSpec { potency := (← getPotencyNoCombo table env name) }))])
    timing_spec := (← newTimingSpec {
      base_cast_time := (.int 0)
      animation_lock := (.int 650)
      application_delay := (.int 624) }) })

/-- class_skills/tank/drk.py:121-148 `flood_of_shadow` -/
def flood_of_shadow (env : Env) : Py PyVal := do
  let name : PyVal := (.str "Flood of Shadow")
  let flood_of_shadow_damage_follow_up : PyVal := (← newFollowUp {
    skill := (← newSkill {
      name := name
      damage_spec := (← newDamageSpec { potency := (← getPotency table env name) }) })
    delay_after_parent_application := (.int 624)
    primary_target_only := (.bool false) })
  return (← newSkill {
    name := name
    is_GCD := (.bool false)
    timing_spec := (← newTimingSpec {
      base_cast_time := (.int 0)
      animation_lock := (.int 650)
      application_delay := (.int 624) })
    follow_up_skills := (.tuple [
      flood_of_shadow_damage_follow_up,
      (← newFollowUp {
        skill := (← get_darkside_buff env)
        delay_after_parent_application := (.int 0)
        primary_target_only := (.bool true) })])
    has_aoe := (.bool true) })

/-- class_skills/tank/drk.py:150-170 `stalwart_soul` -/
def stalwart_soul (env : Env) : Py PyVal := do
  let name : PyVal := (.str "Stalwart Soul")
  return (← newSkill {
    name := name
    is_GCD := (.bool true)
    combo_spec := (.tuple [(← newComboSpec { combo_actions := (.tuple [(.str "Unleash")]) })])
    damage_spec := (mkDict [
      ((.str SimConsts.DEFAULT_CONDITION), (← newDamageSpec { potency := (← getPotency table env name) })),
      ((.str "No Combo"), (← newDamageSpec { potency := (← getPotencyNoCombo table env name) }))])
    timing_spec := (← newTimingSpec {
      base_cast_time := (.int 0)
      animation_lock := (.int 650)
      application_delay := (.int 712) })
    has_aoe := (.bool true) })

/-- class_skills/tank/drk.py:172-194 `edge_of_shadow` -/
def edge_of_shadow (env : Env) : Py PyVal := do
  let name : PyVal := (.str "Edge of Shadow")
  let edge_of_shadow_damage_follow_up : PyVal := (← newFollowUp {
    skill := (← newSkill {
      name := name
      damage_spec := (← newDamageSpec { potency := (← getPotency table env name) }) })
    delay_after_parent_application := (.int 624) })
  return (← newSkill {
    name := name
    is_GCD := (.bool false)
    timing_spec := (← newTimingSpec {
      base_cast_time := (.int 0)
      animation_lock := (.int 650)
      application_delay := (.int 0) })
    follow_up_skills := (.tuple [
      edge_of_shadow_damage_follow_up,
      (← newFollowUp {
        skill := (← get_darkside_buff env)
        delay_after_parent_application := (.int 0) })]) })

/-- class_skills/tank/drk.py:196-227 `salted_earth` -/
def salted_earth (env : Env) : Py PyVal := do
  let mut name : PyVal := .unbound
  name := (.str "Salted Earth (dot)")
  let salted_earth_dot_drk : PyVal := (← newSkill {
    name := name
    is_GCD := (.bool false)
    damage_spec := (← newDamageSpec {
      potency := (← getPotency table env name)
      damage_class := (.damageClass .physicalDot) }) })
  name := (.str "Salted Earth")
  return (← newSkill {
    name := name
    is_GCD := (.bool false)
    timing_spec := (← newTimingSpec {
      base_cast_time := (.int 0)
      animation_lock := (.int 650)
      application_delay := (.int 757) })
    follow_up_skills := (.tuple [
      (← newFollowUp {
        skill := salted_earth_dot_drk
        delay_after_parent_application := (.int 0)
        dot_duration := (← PyVal.mul (.int 15) (.int 1000))
        snapshot_buffs_with_parent := (.bool true)
        snapshot_debuffs_with_parent := (.bool false) })])
    has_aoe := (.bool true) })

/-- class_skills/tank/drk.py:229-245 `salt_and_darkness` -/
def salt_and_darkness (env : Env) : Py PyVal := do
  let name : PyVal := (.str "Salt and Darkness")
  return (← newSkill {
    name := name
    is_GCD := (.bool false)
    damage_spec := (mkDict [
      ((.str SimConsts.DEFAULT_CONDITION), (← newDamageSpec { potency := (← getPotency table env name) }))])
    timing_spec := (← newTimingSpec {
      base_cast_time := (.int 0)
      animation_lock := (.int 650)
      application_delay := (.int 757) })
    has_aoe := (.bool true)
    aoe_dropoff := (.float (5 / 10)) })

/-- class_skills/tank/drk.py:247-259 `plunge` -/
def plunge (env : Env) : Py PyVal := do
  if env.ge .p70 then
    return .none
  let name : PyVal := (.str "Plunge")
  return (← newSkill {
    name := name
    is_GCD := (.bool false)
    damage_spec := (← newDamageSpec { potency := (← getPotency table env name) })
    timing_spec := (← newTimingSpec {
      base_cast_time := (.int 0)
      animation_lock := (.int 650)
      application_delay := (.int 624) }) })

/-- class_skills/tank/drk.py:261-272 `abyssal_drain` -/
def abyssal_drain (env : Env) : Py PyVal := do
  let name : PyVal := (.str "Abyssal Drain")
  return (← newSkill {
    name := name
    is_GCD := (.bool false)
    damage_spec := (← newDamageSpec { potency := (← getPotency table env name) })
    timing_spec := (← newTimingSpec {
      base_cast_time := (.int 0)
      animation_lock := (.int 650)
      application_delay := (.int 978) })
    has_aoe := (.bool true) })

/-- class_skills/tank/drk.py:274-284 `carve_and_spit` -/
def carve_and_spit (env : Env) : Py PyVal := do
  let name : PyVal := (.str "Carve and Spit")
  return (← newSkill {
    name := name
    is_GCD := (.bool false)
    damage_spec := (← newDamageSpec { potency := (← getPotency table env name) })
    timing_spec := (← newTimingSpec {
      base_cast_time := (.int 0)
      animation_lock := (.int 650)
      application_delay := (.int 1473) }) })

/-- class_skills/tank/drk.py:286-296 `bloodspiller` -/
def bloodspiller (env : Env) : Py PyVal := do
  let name : PyVal := (.str "Bloodspiller")
  return (← newSkill {
    name := name
    is_GCD := (.bool true)
    damage_spec := (← newDamageSpec { potency := (← getPotency table env name) })
    timing_spec := (← newTimingSpec {
      base_cast_time := (.int 0)
      animation_lock := (.int 650)
      application_delay := (.int 802) }) })

/-- class_skills/tank/drk.py:298-309 `quietus` -/
def quietus (env : Env) : Py PyVal := do
  let name : PyVal := (.str "Quietus")
  return (← newSkill {
    name := name
    is_GCD := (.bool true)
    damage_spec := (← newDamageSpec { potency := (← getPotency table env name) })
    timing_spec := (← newTimingSpec {
      base_cast_time := (.int 0)
      animation_lock := (.int 650)
      application_delay := (.int 757) })
    has_aoe := (.bool true) })

/-- class_skills/tank/drk.py:311-327 `shadowbringer` -/
def shadowbringer (env : Env) : Py PyVal := do
  let name : PyVal := (.str "Shadowbringer")
  return (← newSkill {
    name := name
    is_GCD := (.bool false)
    damage_spec := (mkDict [
      ((.str SimConsts.DEFAULT_CONDITION), (← newDamageSpec { potency := (← getPotency table env name) }))])
    timing_spec := (← newTimingSpec {
      base_cast_time := (.int 0)
      animation_lock := (.int 650)
      application_delay := (.int 666) })
    has_aoe := (.bool true)
    aoe_dropoff := (.float (5 / 10)) })

/-- class_skills/tank/drk.py:329-443 `living_shadow` -/
def living_shadow (env : Env) : Py PyVal := do
  let mut ls_names_and_potency_and_delays : PyVal := .unbound
  let mut living_shadow_follow_ups : PyVal := .unbound
  let mut fu : PyVal := .unbound
  let name : PyVal := (.str "Living Shadow")
  if env.ge .p70 then
    ls_names_and_potency_and_delays := (.list [
      (.tuple [
        (.str "Abyssal Drain (pet)"),
        (← getSkillData table env (.str "Living Shadow") (.str "potency_base")),
        (.int 6800),
        (.bool true)]),
      (.tuple [
        (.str "Shadowbringer (pet)"),
        (← getSkillData table env (.str "Living Shadow") (.str "potency_shadowbringer")),
        (← PyVal.add (.int 6800) (← PyVal.mul (.int 2) (.int 2200))),
        (.bool false)]),
      (.tuple [
        (.str "Edge of Shadow (pet)"),
        (← getSkillData table env (.str "Living Shadow") (.str "potency_base")),
        (← PyVal.add (.int 6800) (← PyVal.mul (.int 3) (.int 2200))),
        (.bool true)]),
      (.tuple [
        (.str "Bloodspiller (pet)"),
        (← getSkillData table env (.str "Living Shadow") (.str "potency_base")),
        (← PyVal.add (.int 6800) (← PyVal.mul (.int 4) (.int 2200))),
        (.bool true)]),
      (.tuple [
        (.str "Disesteem (pet)"),
        (← getSkillData table env (.str "Living Shadow") (.str "potency_disesteem")),
        (← PyVal.add (.int 6800) (← PyVal.mul (.int 5) (.int 2200))),
        (.bool false)])])
  else
    ls_names_and_potency_and_delays := (.list [
      (.tuple [
        (.str "Abyssal Drain (pet)"),
        (← getSkillData table env (.str "Living Shadow") (.str "potency_base")),
        (.int 6800),
        (.bool true)]),
      (.tuple [
        (.str "Plunge (pet)"),
        (← getSkillData table env (.str "Living Shadow") (.str "potency_base")),
        (← PyVal.add (.int 6800) (.int 2200)),
        (.bool true)]),
      (.tuple [
        (.str "Shadowbringer (pet)"),
        (← getSkillData table env (.str "Living Shadow") (.str "potency_shadowbringer")),
        (← PyVal.add (.int 6800) (← PyVal.mul (.int 2) (.int 2200))),
        (.bool false)]),
      (.tuple [
        (.str "Edge of Shadow (pet)"),
        (← getSkillData table env (.str "Living Shadow") (.str "potency_base")),
        (← PyVal.add (.int 6800) (← PyVal.mul (.int 3) (.int 2200))),
        (.bool true)]),
      (.tuple [
        (.str "Bloodspiller (pet)"),
        (← getSkillData table env (.str "Living Shadow") (.str "potency_base")),
        (← PyVal.add (.int 6800) (← PyVal.mul (.int 4) (.int 2200))),
        (.bool true)]),
      (.tuple [
        (.str "Carve and Spit (pet)"),
        (← getSkillData table env (.str "Living Shadow") (.str "potency_base")),
        (← PyVal.add (.int 6800) (← PyVal.mul (.int 5) (.int 2200))),
        (.bool true)])])
  living_shadow_follow_ups := (.list [])
  for item in (← PyVal.iter ls_names_and_potency_and_delays) do
    let skill_name : PyVal := (← PyVal.getItem item (.int 0))
    let potency : PyVal := (← PyVal.getItem item (.int 1))
    let delay : PyVal := (← PyVal.getItem item (.int 2))
    let primary_target_only : PyVal := (← PyVal.getItem item (.int 3))
    fu := (← newFollowUp {
      skill := (← newSkill {
        name := skill_name
        is_GCD := (.bool false)
        damage_spec := (← newDamageSpec {
          potency := potency
          damage_class := (.damageClass .pet)
          pet_job_mod_override := (.int 100) })
        status_effect_denylist := (.tuple [(.str "Darkside"), (.str "Dragon Sight")]) })
      delay_after_parent_application := delay
      snapshot_buffs_with_parent := (.bool false)
      snapshot_debuffs_with_parent := (.bool false)
      primary_target_only := primary_target_only })
    living_shadow_follow_ups := (← PyVal.append living_shadow_follow_ups fu)
  living_shadow_follow_ups := (← PyVal.toTuple living_shadow_follow_ups)
  return (← newSkill {
    name := name
    is_GCD := (.bool false)
    follow_up_skills := living_shadow_follow_ups
    timing_spec := (← instantTimingSpec)
    status_effect_denylist := (.tuple [(.str "Darkside"), (.str "Dragon Sight")]) })

/-- class_skills/tank/drk.py:445-458 `scarlet_delirium` -/
def scarlet_delirium (env : Env) : Py PyVal := do
  if decide (env.level < 96) then
    return .none
  let name : PyVal := (.str "Scarlet Delirium")
  return (← newSkill {
    name := name
    is_GCD := (.bool true)
    damage_spec := (← newDamageSpec { potency := (← getPotency table env name) })
    timing_spec := (← newTimingSpec {
      base_cast_time := (.int 0)
      animation_lock := (.int 650)
      application_delay := (.int 581) }) })

/-- class_skills/tank/drk.py:460-473 `comeuppance` -/
def comeuppance (env : Env) : Py PyVal := do
  if decide (env.level < 96) then
    return .none
  let name : PyVal := (.str "Comeuppance")
  return (← newSkill {
    name := name
    is_GCD := (.bool true)
    damage_spec := (← newDamageSpec { potency := (← getPotency table env name) })
    timing_spec := (← newTimingSpec {
      base_cast_time := (.int 0)
      animation_lock := (.int 650)
      application_delay := (.int 670) }) })

/-- class_skills/tank/drk.py:475-488 `torcleaver` -/
def torcleaver (env : Env) : Py PyVal := do
  if decide (env.level < 96) then
    return .none
  let name : PyVal := (.str "Torcleaver")
  return (← newSkill {
    name := name
    is_GCD := (.bool true)
    damage_spec := (← newDamageSpec { potency := (← getPotency table env name) })
    timing_spec := (← newTimingSpec {
      base_cast_time := (.int 0)
      animation_lock := (.int 650)
      application_delay := (.int 620) }) })

/-- class_skills/tank/drk.py:490-504 `impalement` -/
def impalement (env : Env) : Py PyVal := do
  if decide (env.level < 96) then
    return .none
  let name : PyVal := (.str "Impalement")
  return (← newSkill {
    name := name
    is_GCD := (.bool true)
    damage_spec := (← newDamageSpec { potency := (← getPotency table env name) })
    timing_spec := (← newTimingSpec {
      base_cast_time := (.int 0)
      animation_lock := (.int 650)
      application_delay := (.int 980) })
    has_aoe := (.bool true) })

/-- class_skills/tank/drk.py:506-525 `disesteem` -/
def disesteem (env : Env) : Py PyVal := do
  if decide (env.level < 100) then
    return .none
  let name : PyVal := (.str "Disesteem")
  return (← newSkill {
    name := name
    is_GCD := (.bool true)
    damage_spec := (mkDict [
      ((.str SimConsts.DEFAULT_CONDITION), (← newDamageSpec { potency := (← getPotency table env name) }))])
    timing_spec := (← newTimingSpec {
      base_cast_time := (.int 0)
      animation_lock := (.int 650)
      application_delay := (.int 1650) })
    has_aoe := (.bool true)
    aoe_dropoff := (.float (5 / 10)) })

/-- class_skills/tank/drk.py:531-533 `rampart` -/
def rampart (_env : Env) : Py PyVal := do
  return (← newSkill {
    name := (.str "Rampart")
    is_GCD := (.bool false)
    timing_spec := (← instantTimingSpec) })

/-- class_skills/tank/drk.py:535-537 `provoke` -/
def provoke (_env : Env) : Py PyVal := do
  return (← newSkill {
    name := (.str "Provoke")
    is_GCD := (.bool false)
    timing_spec := (← instantTimingSpec) })

/-- class_skills/tank/drk.py:539-543 `reprisal` -/
def reprisal (_env : Env) : Py PyVal := do
  return (← newSkill {
    name := (.str "Reprisal")
    is_GCD := (.bool false)
    timing_spec := (← instantTimingSpec) })

/-- class_skills/tank/drk.py:545-549 `arms_length` -/
def arms_length (_env : Env) : Py PyVal := do
  return (← newSkill {
    name := (.str "Arm's Length")
    is_GCD := (.bool false)
    timing_spec := (← instantTimingSpec) })

/-- class_skills/tank/drk.py:551-553 `shirk` -/
def shirk (_env : Env) : Py PyVal := do
  return (← newSkill {
    name := (.str "Shirk")
    is_GCD := (.bool false)
    timing_spec := (← instantTimingSpec) })

/-- class_skills/tank/drk.py:555-559 `delirium` -/
def delirium (_env : Env) : Py PyVal := do
  return (← newSkill {
    name := (.str "Delirium")
    is_GCD := (.bool false)
    timing_spec := (← instantTimingSpec) })

/-- class_skills/tank/drk.py:561-565 `blood_weapon` -/
def blood_weapon (_env : Env) : Py PyVal := do
  return (← newSkill {
    name := (.str "Blood Weapon")
    is_GCD := (.bool false)
    timing_spec := (← instantTimingSpec) })

/-- class_skills/tank/drk.py:567-571 `shadowstride` -/
def shadowstride (_env : Env) : Py PyVal := do
  return (← newSkill {
    name := (.str "Shadowstride")
    is_GCD := (.bool false)
    timing_spec := (← instantTimingSpec) })

/-- class_skills/tank/drk.py:573-577 `the_blackest_night` -/
def the_blackest_night (_env : Env) : Py PyVal := do
  return (← newSkill {
    name := (.str "The Blackest Night")
    is_GCD := (.bool false)
    timing_spec := (← instantTimingSpec) })

/-- class_skills/tank/drk.py:579-583 `oblation` -/
def oblation (_env : Env) : Py PyVal := do
  return (← newSkill {
    name := (.str "Oblation")
    is_GCD := (.bool false)
    timing_spec := (← instantTimingSpec) })

/-- class_skills/tank/drk.py:16-583 `DrkSkills`; the methods in the order of `dir`. -/
def job (env : Env) : JobClass where
  jobClass := "DRK"
  skillMethods := [
    abyssal_drain env,
    arms_length env,
    auto env,
    blood_weapon env,
    bloodspiller env,
    carve_and_spit env,
    comeuppance env,
    delirium env,
    disesteem env,
    edge_of_shadow env,
    flood_of_shadow env,
    hard_slash env,
    impalement env,
    living_shadow env,
    oblation env,
    plunge env,
    provoke env,
    quietus env,
    rampart env,
    reprisal env,
    salt_and_darkness env,
    salted_earth env,
    scarlet_delirium env,
    shadowbringer env,
    shadowstride env,
    shirk env,
    souleater env,
    stalwart_soul env,
    syphon_strike env,
    the_blackest_night env,
    torcleaver env,
    unleash env,
    unmend env]

end Ama.GameData.Drk
