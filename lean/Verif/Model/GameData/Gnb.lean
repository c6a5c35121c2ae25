import Verif.Model.GameData.Values

/-!
# GNB

Model of `simulator/game_data/class_skills/tank/gnb.py` and `simulator/game_data/class_skills/tank/gnb_data.py`, written by
`tools/translate.py`: one function per method.  Paths in the comments are relative to
`simulator/game_data`.
-/

namespace Ama.GameData.Gnb

open PyVal

/-- class_skills/tank/gnb_data.py:7-46 `ALL_DATA` -/
def table : Table := [
  ("Keen Edge", [
    (90, [("potency", [(.p655, .ok (.int 200))])]),
    (100, [("potency", [(.p70, .ok (.int 300))])])]),
  ("Brutal Shell", [
    (90, [
      ("potency", [(.p655, .ok (.int 300))]),
      ("potency_no_combo", [(.p655, .ok (.int 160))])]),
    (100, [
      ("potency", [(.p70, .ok (.int 380))]),
      ("potency_no_combo", [(.p70, .ok (.int 240))])])]),
  ("Demon Slice", [
    (90, [("potency", [(.p655, .ok (.int 100))])]),
    (100, [("potency", [(.p70, .ok (.int 100))])])]),
  ("Lightning Shot", [
    (90, [("potency", [(.p655, .ok (.int 150))])]),
    (100, [("potency", [(.p70, .ok (.int 150))])])]),
  ("Solid Barrel", [
    (90, [
      ("potency", [(.p655, .ok (.int 360))]),
      ("potency_no_combo", [(.p655, .ok (.int 140))])]),
    (100, [
      ("potency", [(.p70, .ok (.int 460))]),
      ("potency_no_combo", [(.p70, .ok (.int 240))])])]),
  ("Burst Strike", [
    (90, [("potency", [(.p655, .ok (.int 380))])]),
    (100, [("potency", [(.p70, .ok (.int 460))])])]),
  ("Demon Slaughter", [
    (90, [
      ("potency", [(.p655, .ok (.int 160))]),
      ("potency_no_combo", [(.p655, .ok (.int 100))])]),
    (100, [
      ("potency", [(.p70, .ok (.int 160))]),
      ("potency_no_combo", [(.p70, .ok (.int 100))])])]),
  ("Sonic Break (dot)", [
    (90, [("potency", [(.p655, .ok (.int 60))])]),
    (100, [("potency", [(.p70, .ok (.int 60))])])]),
  ("Sonic Break", [
    (90, [("potency", [(.p655, .ok (.int 300))])]),
    (100, [("potency", [(.p70, .ok (.int 300))])])]),
  ("Rough Divide", [(90, [("potency", [(.p655, .ok (.int 150))])])]),
  ("Gnashing Fang", [
    (90, [("potency", [(.p655, .ok (.int 380))])]),
    (100, [("potency", [(.p70, .ok (.int 500))])])]),
  ("Savage Claw", [
    (90, [("potency", [(.p655, .ok (.int 460))])]),
    (100, [("potency", [(.p70, .ok (.int 560))])])]),
  ("Wicked Talon", [
    (90, [("potency", [(.p655, .ok (.int 540))])]),
    (100, [("potency", [(.p70, .ok (.int 620))])])]),
  ("Bow Shock (dot)", [
    (90, [("potency", [(.p655, .ok (.int 60))])]),
    (100, [("potency", [(.p70, .ok (.int 60))])])]),
  ("Bow Shock", [
    (90, [("potency", [(.p655, .ok (.int 150))])]),
    (100, [("potency", [(.p70, .ok (.int 150))])])]),
  ("Jugular Rip", [
    (90, [("potency", [(.p655, .ok (.int 200))])]),
    (100, [("potency", [(.p70, .ok (.int 240))])])]),
  ("Abdomen Tear", [
    (90, [("potency", [(.p655, .ok (.int 240))])]),
    (100, [("potency", [(.p70, .ok (.int 280))])])]),
  ("Eye Gouge", [
    (90, [("potency", [(.p655, .ok (.int 280))])]),
    (100, [("potency", [(.p70, .ok (.int 320))])])]),
  ("Fated Circle", [
    (90, [("potency", [(.p655, .ok (.int 300))])]),
    (100, [("potency", [(.p70, .ok (.int 300))])])]),
  ("Blasting Zone", [
    (90, [("potency", [(.p655, .ok (.int 720))])]),
    (100, [("potency", [(.p70, .ok (.int 800))])])]),
  ("Hypervelocity", [
    (90, [("potency", [(.p655, .ok (.int 180)), (.p71, .ok (.int 160))])]),
    (100, [("potency", [(.p70, .ok (.int 220)), (.p71, .ok (.int 200))])])]),
  ("Double Down", [
    (90, [("potency", [(.p655, .ok (.int 1200))])]),
    (100, [("potency", [(.p70, .ok (.int 1200))])])]),
  ("Fated Brand", [(100, [("potency", [(.p70, .ok (.int 120))])])]),
  ("Reign of Beasts", [(100, [("potency", [(.p70, .ok (.int 800))])])]),
  ("Noble Blood", [(100, [("potency", [(.p70, .ok (.int 1000))])])]),
  ("Lion Heart", [(100, [("potency", [(.p70, .ok (.int 1200))])])])]

/-- class_skills/tank/gnb.py:22-30 `get_combo_breakers` -/
def get_combo_breakers (_env : Env) : Py PyVal := do
  return (.tuple [
    (.tuple [(.int 0), (.tuple [(.int 2)])]),
    (.tuple [(.int 1), (.tuple [(.int 0), (.int 1)])]),
    (.tuple [(.int 2), (.tuple [(.int 0)])])])

/-- class_skills/tank/gnb.py:32-42 `auto` -/
def auto (_env : Env) : Py PyVal := do
  let name : PyVal := (.str "Auto")
  return (← newSkill {
    name := name
    is_GCD := (.bool false)
    timing_spec := (← autoTimingSpec)
    damage_spec := (← newDamageSpec {
      potency := (.int 90)
      damage_class := (.damageClass .auto)
      trait_damage_mult_override := (.int 1) }) })

/-- class_skills/tank/gnb.py:44-55 `keen_edge` -/
def keen_edge (env : Env) : Py PyVal := do
  let name : PyVal := (.str "Keen Edge")
  return (← newSkill {
    name := name
    is_GCD := (.bool true)
    damage_spec := (← newDamageSpec { potency := (← getPotency table env name) })
    combo_spec := (.tuple [(← newComboSpec { combo_group := (.int 0) })])
    timing_spec := (← newTimingSpec {
      base_cast_time := (.int 0)
      animation_lock := (.int 650)
      application_delay := (.int 893) }) })

/-- class_skills/tank/gnb.py:57-67 `no_mercy` -/
def no_mercy (_env : Env) : Py PyVal := do
  let name : PyVal := (.str "No Mercy")
  return (← newSkill {
    name := name
    is_GCD := (.bool false)
    buff_spec := (← newStatusEffectSpec {
      duration := (← PyVal.toInt (← PyVal.mul (.float (1996 / 100)) (.int 1000)))
      damage_mult := (.float (120 / 100)) })
    timing_spec := (← newTimingSpec {
      base_cast_time := (.int 0)
      animation_lock := (.int 650)
      application_delay := (.int 620) }) })

/-- class_skills/tank/gnb.py:69-87 `brutal_shell` -/
def brutal_shell (env : Env) : Py PyVal := do
  let name : PyVal := (.str "Brutal Shell")
  return (← newSkill {
    name := name
    is_GCD := (.bool true)
    damage_spec := (mkDict [
      ((.str SimConsts.DEFAULT_CONDITION), (← newDamageSpec { potency := (← getPotency table env name) })),
      ((.str "No Combo"), (← newDamageSpec { potency := (← getPotencyNoCombo table env name) }))])
    combo_spec := (.tuple [
      (← newComboSpec {
        combo_group := (.int 0)
        combo_actions := (.tuple [(.str "Keen Edge")]) })])
    timing_spec := (← newTimingSpec {
      base_cast_time := (.int 0)
      animation_lock := (.int 650)
      application_delay := (.int 1074) }) })

/-- class_skills/tank/gnb.py:89-101 `demon_slice` -/
def demon_slice (env : Env) : Py PyVal := do
  let name : PyVal := (.str "Demon Slice")
  return (← newSkill {
    name := name
    is_GCD := (.bool true)
    damage_spec := (← newDamageSpec { potency := (← getPotency table env name) })
    combo_spec := (.tuple [(← newComboSpec { combo_group := (.int 2) })])
    timing_spec := (← newTimingSpec {
      base_cast_time := (.int 0)
      animation_lock := (.int 650)
      application_delay := (.int 626) })
    has_aoe := (.bool true) })

/-- class_skills/tank/gnb.py:103-113 `lightning_shot` -/
def lightning_shot (env : Env) : Py PyVal := do
  let name : PyVal := (.str "Lightning Shot")
  return (← newSkill {
    name := name
    is_GCD := (.bool true)
    damage_spec := (← newDamageSpec { potency := (← getPotency table env name) })
    timing_spec := (← newTimingSpec {
      base_cast_time := (.int 0)
      animation_lock := (.int 650)
      application_delay := (.int 716) }) })

/-- class_skills/tank/gnb.py:115-133 `solid_barrel` -/
def solid_barrel (env : Env) : Py PyVal := do
  let name : PyVal := (.str "Solid Barrel")
  return (← newSkill {
    name := name
    is_GCD := (.bool true)
    damage_spec := (mkDict [
      ((.str SimConsts.DEFAULT_CONDITION), (← newDamageSpec { potency := (← getPotency table env name) })),
      ((.str "No Combo"), (← newDamageSpec { potency := (← getPotencyNoCombo table env name) }))])
    combo_spec := (.tuple [
      (← newComboSpec {
        combo_group := (.int 0)
        combo_actions := (.tuple [(.str "Brutal Shell")]) })])
    timing_spec := (← newTimingSpec {
      base_cast_time := (.int 0)
      animation_lock := (.int 650)
      application_delay := (.int 1653) }) })

/-- class_skills/tank/gnb.py:135-145 `burst_strike` -/
def burst_strike (env : Env) : Py PyVal := do
  let name : PyVal := (.str "Burst Strike")
  return (← newSkill {
    name := name
    is_GCD := (.bool true)
    damage_spec := (← newDamageSpec { potency := (← getPotency table env name) })
    timing_spec := (← newTimingSpec {
      base_cast_time := (.int 0)
      animation_lock := (.int 650)
      application_delay := (.int 714) }) })

/-- class_skills/tank/gnb.py:147-166 `demon_slaughter` -/
def demon_slaughter (env : Env) : Py PyVal := do
  let name : PyVal := (.str "Demon Slaughter")
  return (← newSkill {
    name := name
    is_GCD := (.bool true)
    damage_spec := (mkDict [
      ((.str SimConsts.DEFAULT_CONDITION), (← newDamageSpec { potency := (← getPotency table env name) })),
      ((.str "No Combo"), (← newDamageSpec { potency := (← getPotencyNoCombo table env name) }))])
    combo_spec := (.tuple [
      (← newComboSpec {
        combo_group := (.int 2)
        combo_actions := (.tuple [(.str "Demon Slice")]) })])
    timing_spec := (← newTimingSpec {
      base_cast_time := (.int 0)
      animation_lock := (.int 650)
      application_delay := (.int 626) })
    has_aoe := (.bool true) })

/-- class_skills/tank/gnb.py:168-197 `sonic_break` -/
def sonic_break (env : Env) : Py PyVal := do
  let mut name : PyVal := .unbound
  name := (.str "Sonic Break (dot)")
  let sonic_break_dot_gnb : PyVal := (← newSkill {
    name := name
    is_GCD := (.bool false)
    damage_spec := (← newDamageSpec {
      potency := (← getPotency table env name)
      damage_class := (.damageClass .physicalDot) }) })
  name := (.str "Sonic Break")
  return (← newSkill {
    name := name
    is_GCD := (.bool true)
    timing_spec := (← newTimingSpec {
      base_cast_time := (.int 0)
      animation_lock := (.int 650)
      application_delay := (.int 581) })
    damage_spec := (← newDamageSpec { potency := (← getPotency table env name) })
    follow_up_skills := (.tuple [
      (← newFollowUp {
        skill := sonic_break_dot_gnb
        delay_after_parent_application := (.int 0)
        dot_duration := (← PyVal.mul (.int 30) (.int 1000))
        snapshot_buffs_with_parent := (.bool true)
        snapshot_debuffs_with_parent := (.bool true) })]) })

/-- class_skills/tank/gnb.py:199-212 `rough_divide` -/
def rough_divide (env : Env) : Py PyVal := do
  if env.ge .p70 then
    return .none
  let name : PyVal := (.str "Rough Divide")
  return (← newSkill {
    name := name
    is_GCD := (.bool false)
    damage_spec := (← newDamageSpec { potency := (← getPotency table env name) })
    timing_spec := (← newTimingSpec {
      base_cast_time := (.int 0)
      animation_lock := (.int 650)
      application_delay := (.int 491) }) })

/-- class_skills/tank/gnb.py:214-225 `gnashing_fang` -/
def gnashing_fang (env : Env) : Py PyVal := do
  let name : PyVal := (.str "Gnashing Fang")
  return (← newSkill {
    name := name
    is_GCD := (.bool true)
    damage_spec := (← newDamageSpec { potency := (← getPotency table env name) })
    combo_spec := (.tuple [(← newComboSpec { combo_group := (.int 1) })])
    timing_spec := (← newTimingSpec {
      base_cast_time := (.int 0)
      animation_lock := (.int 650)
      application_delay := (.int 623) }) })

/-- class_skills/tank/gnb.py:227-238 `savage_claw` -/
def savage_claw (env : Env) : Py PyVal := do
  let name : PyVal := (.str "Savage Claw")
  return (← newSkill {
    name := name
    is_GCD := (.bool true)
    damage_spec := (← newDamageSpec { potency := (← getPotency table env name) })
    combo_spec := (.tuple [
      (← newComboSpec {
        combo_group := (.int 1)
        combo_actions := (.tuple [(.str "Gnashing Fang")]) })])
    timing_spec := (← newTimingSpec {
      base_cast_time := (.int 0)
      animation_lock := (.int 650)
      application_delay := (.int 625) }) })

/-- class_skills/tank/gnb.py:240-251 `wicked_talon` -/
def wicked_talon (env : Env) : Py PyVal := do
  let name : PyVal := (.str "Wicked Talon")
  return (← newSkill {
    name := name
    is_GCD := (.bool true)
    damage_spec := (← newDamageSpec { potency := (← getPotency table env name) })
    combo_spec := (.tuple [
      (← newComboSpec {
        combo_group := (.int 1)
        combo_actions := (.tuple [(.str "Savage Claw")]) })])
    timing_spec := (← newTimingSpec {
      base_cast_time := (.int 0)
      animation_lock := (.int 650)
      application_delay := (.int 1162) }) })

/-- class_skills/tank/gnb.py:253-283 `bow_shock` -/
def bow_shock (env : Env) : Py PyVal := do
  let mut name : PyVal := .unbound
  name := (.str "Bow Shock (dot)")
  let bow_shock_dot_gnb : PyVal := (← newSkill {
    name := name
    is_GCD := (.bool false)
    damage_spec := (← newDamageSpec {
      potency := (← getPotency table env name)
      damage_class := (.damageClass .physicalDot) }) })
  name := (.str "Bow Shock")
  return (← newSkill {
    name := name
    is_GCD := (.bool false)
    timing_spec := (← newTimingSpec {
      base_cast_time := (.int 0)
      animation_lock := (.int 650)
      application_delay := (.int 627) })
    damage_spec := (← newDamageSpec { potency := (← getPotency table env name) })
    follow_up_skills := (.tuple [
      (← newFollowUp {
        skill := bow_shock_dot_gnb
        delay_after_parent_application := (.int 0)
        dot_duration := (← PyVal.mul (.int 15) (.int 1000))
        snapshot_buffs_with_parent := (.bool true)
        snapshot_debuffs_with_parent := (.bool true) })])
    has_aoe := (.bool true) })

/-- class_skills/tank/gnb.py:285-295 `jugular_rip` -/
def jugular_rip (env : Env) : Py PyVal := do
  let name : PyVal := (.str "Jugular Rip")
  return (← newSkill {
    name := name
    is_GCD := (.bool false)
    damage_spec := (← newDamageSpec { potency := (← getPotency table env name) })
    timing_spec := (← newTimingSpec {
      base_cast_time := (.int 0)
      animation_lock := (.int 650)
      application_delay := (.int 802) }) })

/-- class_skills/tank/gnb.py:297-307 `abdomen_tear` -/
def abdomen_tear (env : Env) : Py PyVal := do
  let name : PyVal := (.str "Abdomen Tear")
  return (← newSkill {
    name := name
    is_GCD := (.bool false)
    damage_spec := (← newDamageSpec { potency := (← getPotency table env name) })
    timing_spec := (← newTimingSpec {
      base_cast_time := (.int 0)
      animation_lock := (.int 650)
      application_delay := (.int 757) }) })

/-- class_skills/tank/gnb.py:309-319 `eye_gouge` -/
def eye_gouge (env : Env) : Py PyVal := do
  let name : PyVal := (.str "Eye Gouge")
  return (← newSkill {
    name := name
    is_GCD := (.bool false)
    damage_spec := (← newDamageSpec { potency := (← getPotency table env name) })
    timing_spec := (← newTimingSpec {
      base_cast_time := (.int 0)
      animation_lock := (.int 650)
      application_delay := (.int 981) }) })

/-- class_skills/tank/gnb.py:321-332 `fated_circle` -/
def fated_circle (env : Env) : Py PyVal := do
  let name : PyVal := (.str "Fated Circle")
  return (← newSkill {
    name := name
    is_GCD := (.bool true)
    damage_spec := (← newDamageSpec { potency := (← getPotency table env name) })
    timing_spec := (← newTimingSpec {
      base_cast_time := (.int 0)
      animation_lock := (.int 650)
      application_delay := (.int 537) })
    has_aoe := (.bool true) })

/-- class_skills/tank/gnb.py:334-344 `blasting_zone` -/
def blasting_zone (env : Env) : Py PyVal := do
  let name : PyVal := (.str "Blasting Zone")
  return (← newSkill {
    name := name
    is_GCD := (.bool false)
    damage_spec := (← newDamageSpec { potency := (← getPotency table env name) })
    timing_spec := (← newTimingSpec {
      base_cast_time := (.int 0)
      animation_lock := (.int 650)
      application_delay := (.int 625) }) })

/-- class_skills/tank/gnb.py:346-356 `hypervelocity` -/
def hypervelocity (env : Env) : Py PyVal := do
  let name : PyVal := (.str "Hypervelocity")
  return (← newSkill {
    name := name
    is_GCD := (.bool false)
    damage_spec := (← newDamageSpec { potency := (← getPotency table env name) })
    timing_spec := (← newTimingSpec {
      base_cast_time := (.int 0)
      animation_lock := (.int 650)
      application_delay := (.int 758) }) })

/-- class_skills/tank/gnb.py:358-374 `double_down` -/
def double_down (env : Env) : Py PyVal := do
  let name : PyVal := (.str "Double Down")
  return (← newSkill {
    name := name
    is_GCD := (.bool true)
    damage_spec := (mkDict [
      ((.str SimConsts.DEFAULT_CONDITION), (← newDamageSpec { potency := (← getPotency table env name) }))])
    timing_spec := (← newTimingSpec {
      base_cast_time := (.int 0)
      animation_lock := (.int 650)
      application_delay := (.int 716) })
    has_aoe := (.bool true)
    aoe_dropoff := (.float (15 / 100)) })

/-- class_skills/tank/gnb.py:376-390 `fated_brand` -/
def fated_brand (env : Env) : Py PyVal := do
  if decide (env.level < 96) then
    return .none
  let name : PyVal := (.str "Fated Brand")
  return (← newSkill {
    name := name
    is_GCD := (.bool false)
    damage_spec := (← newDamageSpec { potency := (← getPotency table env name) })
    timing_spec := (← newTimingSpec {
      base_cast_time := (.int 0)
      animation_lock := (.int 650)
      application_delay := (.int 1160) })
    has_aoe := (.bool true) })

/-- class_skills/tank/gnb.py:392-411 `reign_of_beasts` -/
def reign_of_beasts (env : Env) : Py PyVal := do
  if decide (env.level < 100) then
    return .none
  let name : PyVal := (.str "Reign of Beasts")
  return (← newSkill {
    name := name
    is_GCD := (.bool true)
    damage_spec := (mkDict [
      ((.str SimConsts.DEFAULT_CONDITION), (← newDamageSpec { potency := (← getPotency table env name) }))])
    timing_spec := (← newTimingSpec {
      base_cast_time := (.int 0)
      animation_lock := (.int 650)
      application_delay := (.int 1160) })
    has_aoe := (.bool true)
    aoe_dropoff := (.float (6 / 10)) })

/-- class_skills/tank/gnb.py:413-432 `noble_blood` -/
def noble_blood (env : Env) : Py PyVal := do
  if decide (env.level < 100) then
    return .none
  let name : PyVal := (.str "Noble Blood")
  return (← newSkill {
    name := name
    is_GCD := (.bool true)
    damage_spec := (mkDict [
      ((.str SimConsts.DEFAULT_CONDITION), (← newDamageSpec { potency := (← getPotency table env name) }))])
    timing_spec := (← newTimingSpec {
      base_cast_time := (.int 0)
      animation_lock := (.int 650)
      application_delay := (.int 1650) })
    has_aoe := (.bool true)
    aoe_dropoff := (.float (6 / 10)) })

/-- class_skills/tank/gnb.py:434-452 `lion_heart` -/
def lion_heart (env : Env) : Py PyVal := do
  if decide (env.level < 100) then
    return .none
  let name : PyVal := (.str "Lion Heart")
  return (← newSkill {
    name := name
    is_GCD := (.bool true)
    damage_spec := (mkDict [
      ((.str SimConsts.DEFAULT_CONDITION), (← newDamageSpec { potency := (← getPotency table env name) }))])
    timing_spec := (← newTimingSpec {
      base_cast_time := (.int 0)
      animation_lock := (.int 650)
      application_delay := (.int 1790) })
    has_aoe := (.bool true)
    aoe_dropoff := (.float (6 / 10)) })

/-- class_skills/tank/gnb.py:458-462 `bloodfest` -/
def bloodfest (_env : Env) : Py PyVal := do
  return (← newSkill {
    name := (.str "Bloodfest")
    is_GCD := (.bool false)
    timing_spec := (← instantTimingSpec) })

/-- class_skills/tank/gnb.py:464-466 `rampart` -/
def rampart (_env : Env) : Py PyVal := do
  return (← newSkill {
    name := (.str "Rampart")
    is_GCD := (.bool false)
    timing_spec := (← instantTimingSpec) })

/-- class_skills/tank/gnb.py:468-470 `provoke` -/
def provoke (_env : Env) : Py PyVal := do
  return (← newSkill {
    name := (.str "Provoke")
    is_GCD := (.bool false)
    timing_spec := (← instantTimingSpec) })

/-- class_skills/tank/gnb.py:472-476 `reprisal` -/
def reprisal (_env : Env) : Py PyVal := do
  return (← newSkill {
    name := (.str "Reprisal")
    is_GCD := (.bool false)
    timing_spec := (← instantTimingSpec) })

/-- class_skills/tank/gnb.py:478-482 `arms_length` -/
def arms_length (_env : Env) : Py PyVal := do
  return (← newSkill {
    name := (.str "Arm's Length")
    is_GCD := (.bool false)
    timing_spec := (← instantTimingSpec) })

/-- class_skills/tank/gnb.py:484-486 `shirk` -/
def shirk (_env : Env) : Py PyVal := do
  return (← newSkill {
    name := (.str "Shirk")
    is_GCD := (.bool false)
    timing_spec := (← instantTimingSpec) })

/-- class_skills/tank/gnb.py:488-492 `camouflage` -/
def camouflage (_env : Env) : Py PyVal := do
  return (← newSkill {
    name := (.str "Camouflage")
    is_GCD := (.bool false)
    timing_spec := (← instantTimingSpec) })

/-- class_skills/tank/gnb.py:494-498 `royal_guard` -/
def royal_guard (_env : Env) : Py PyVal := do
  return (← newSkill {
    name := (.str "Royal Guard")
    is_GCD := (.bool false)
    timing_spec := (← instantTimingSpec) })

/-- class_skills/tank/gnb.py:500-506 `release_royal_guard` -/
def release_royal_guard (_env : Env) : Py PyVal := do
  return (← newSkill {
    name := (.str "Release Royal Guard")
    is_GCD := (.bool false)
    timing_spec := (← instantTimingSpec) })

/-- class_skills/tank/gnb.py:508-512 `nebula` -/
def nebula (env : Env) : Py PyVal := do
  if decide (env.level ≥ 92) then
    return .none
  return (← newSkill {
    name := (.str "Nebula")
    is_GCD := (.bool false)
    timing_spec := (← instantTimingSpec) })

/-- class_skills/tank/gnb.py:514-520 `great_nebula` -/
def great_nebula (env : Env) : Py PyVal := do
  if decide (env.level < 92) then
    return .none
  return (← newSkill {
    name := (.str "Great Nebula")
    is_GCD := (.bool false)
    timing_spec := (← instantTimingSpec) })

/-- class_skills/tank/gnb.py:522-524 `aurora` -/
def aurora (_env : Env) : Py PyVal := do
  return (← newSkill {
    name := (.str "Aurora")
    is_GCD := (.bool false)
    timing_spec := (← instantTimingSpec) })

/-- class_skills/tank/gnb.py:526-530 `superbolide` -/
def superbolide (_env : Env) : Py PyVal := do
  return (← newSkill {
    name := (.str "Superbolide")
    is_GCD := (.bool false)
    timing_spec := (← instantTimingSpec) })

/-- class_skills/tank/gnb.py:532-538 `trajectory` -/
def trajectory (env : Env) : Py PyVal := do
  if env.lt .p70 then
    return .none
  return (← newSkill {
    name := (.str "Trajectory")
    is_GCD := (.bool false)
    timing_spec := (← instantTimingSpec) })

/-- class_skills/tank/gnb.py:540-544 `heart_of_light` -/
def heart_of_light (_env : Env) : Py PyVal := do
  return (← newSkill {
    name := (.str "Heart of Light")
    is_GCD := (.bool false)
    timing_spec := (← instantTimingSpec) })

/-- class_skills/tank/gnb.py:546-550 `heart_of_stone` -/
def heart_of_stone (_env : Env) : Py PyVal := do
  return (← newSkill {
    name := (.str "Heart of Stone")
    is_GCD := (.bool false)
    timing_spec := (← instantTimingSpec) })

/-- class_skills/tank/gnb.py:552-558 `heart_of_corundrum` -/
def heart_of_corundrum (_env : Env) : Py PyVal := do
  return (← newSkill {
    name := (.str "Heart of Corundrum")
    is_GCD := (.bool false)
    timing_spec := (← instantTimingSpec) })

/-- class_skills/tank/gnb.py:16-558 `GnbSkills`; the methods in the order of `dir`. -/
def job (env : Env) : JobClass where
  jobClass := "GNB"
  comboBreakers := get_combo_breakers env
  skillMethods := [
    abdomen_tear env,
    arms_length env,
    aurora env,
    auto env,
    blasting_zone env,
    bloodfest env,
    bow_shock env,
    brutal_shell env,
    burst_strike env,
    camouflage env,
    demon_slaughter env,
    demon_slice env,
    double_down env,
    eye_gouge env,
    fated_brand env,
    fated_circle env,
    gnashing_fang env,
    great_nebula env,
    heart_of_corundrum env,
    heart_of_light env,
    heart_of_stone env,
    hypervelocity env,
    jugular_rip env,
    keen_edge env,
    lightning_shot env,
    lion_heart env,
    nebula env,
    no_mercy env,
    noble_blood env,
    provoke env,
    rampart env,
    reign_of_beasts env,
    release_royal_guard env,
    reprisal env,
    rough_divide env,
    royal_guard env,
    savage_claw env,
    shirk env,
    solid_barrel env,
    sonic_break env,
    superbolide env,
    trajectory env,
    wicked_talon env]

end Ama.GameData.Gnb
