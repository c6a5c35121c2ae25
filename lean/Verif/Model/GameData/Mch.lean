import Verif.Model.GameData.Values

/-!
# MCH

Model of `simulator/game_data/class_skills/ranged/mch.py` and `simulator/game_data/class_skills/ranged/mch_data.py`, written by
`tools/translate.py`: one function per method.  Paths in the comments are relative to
`simulator/game_data`.
-/

namespace Ama.GameData.Mch

open PyVal

/-- class_skills/ranged/mch_data.py:7-59 `ALL_DATA` -/
def table : Table := [
  ("Flamethrower (dot)", [
    (90, [("potency", [(.p655, .ok (.int 80))])]),
    (100, [("potency", [(.p70, .ok (.int 80))])])]),
  ("Gauss Round", [
    (90, [("potency", [(.p655, .ok (.int 130))])]),
    (100, [("potency", [(.p70, .ok (.int 130))])])]),
  ("Heat Blast", [
    (90, [("potency", [(.p655, .ok (.int 200))])]),
    (100, [("potency", [(.p70, .ok (.int 200))])])]),
  ("Ricochet", [
    (90, [("potency", [(.p655, .ok (.int 130))])]),
    (100, [("potency", [(.p70, .ok (.int 130))])])]),
  ("Auto Crossbow", [
    (90, [("potency", [(.p655, .ok (.int 140))])]),
    (100, [("potency", [(.p70, .ok (.int 160))])])]),
  ("Heated Split Shot", [
    (90, [("potency", [(.p655, .ok (.int 200))])]),
    (100, [("potency", [(.p70, .ok (.int 220))])])]),
  ("Drill", [
    (90, [("potency", [(.p655, .ok (.int 600))])]),
    (100, [("potency", [(.p70, .ok (.int 600))])])]),
  ("Heated Slug Shot", [
    (90, [
      ("potency", [(.p655, .ok (.int 300))]),
      ("potency_no_combo", [(.p655, .ok (.int 120))])]),
    (100, [
      ("potency", [(.p70, .ok (.int 320))]),
      ("potency_no_combo", [(.p70, .ok (.int 140))])])]),
  ("Heated Clean Shot", [
    (90, [
      ("potency", [(.p655, .ok (.int 380))]),
      ("potency_no_combo", [(.p655, .ok (.int 120))])]),
    (100, [
      ("potency", [(.p70, .ok (.int 400)), (.p71, .ok (.int 420))]),
      ("potency_no_combo", [(.p70, .ok (.int 140)), (.p71, .ok (.int 160))])])]),
  ("Bioblaster (dot)", [
    (90, [("potency", [(.p655, .ok (.int 50))])]),
    (100, [("potency", [(.p70, .ok (.int 50))])])]),
  ("Bioblaster", [
    (90, [("potency", [(.p655, .ok (.int 50))])]),
    (100, [("potency", [(.p70, .ok (.int 50))])])]),
  ("Air Anchor", [
    (90, [("potency", [(.p655, .ok (.int 600))])]),
    (100, [("potency", [(.p70, .ok (.int 600))])])]),
  ("Scattergun", [
    (90, [("potency", [(.p655, .ok (.int 150))])]),
    (100, [("potency", [(.p70, .ok (.int 160))])])]),
  ("Chain Saw", [
    (90, [("potency", [(.p655, .ok (.int 600))])]),
    (100, [("potency", [(.p70, .ok (.int 600))])])]),
  ("Blazing Shot", [
    (90, [("potency", [(.p70, .ok (.int 220))])]),
    (100, [("potency", [(.p70, .ok (.int 220)), (.p71, .ok (.int 240))])])]),
  ("Checkmate", [(100, [("potency", [(.p70, .ok (.int 160)), (.p71, .ok (.int 170))])])]),
  ("Double Check", [(100, [("potency", [(.p70, .ok (.int 160)), (.p71, .ok (.int 170))])])]),
  ("Excavator", [(100, [("potency", [(.p70, .ok (.int 600))])])]),
  ("Full Metal Field", [
    (100, [("potency", [(.p70, .ok (.int 700)), (.p705, .ok (.int 900))])])]),
  ("Arm Punch (pet)", [
    (90, [
      ("min_potency", [(.p655, .ok (.int 120))]),
      ("max_potency", [(.p655, .ok (.int 240))])]),
    (100, [
      ("min_potency", [(.p70, .ok (.int 120))]),
      ("max_potency", [(.p70, .ok (.int 240))])])]),
  ("Roller Dash (pet)", [
    (90, [
      ("min_potency", [(.p655, .ok (.int 240))]),
      ("max_potency", [(.p655, .ok (.int 480))])]),
    (100, [
      ("min_potency", [(.p70, .ok (.int 240))]),
      ("max_potency", [(.p70, .ok (.int 480))])])]),
  ("Pile Bunker (pet)", [
    (90, [
      ("min_potency", [(.p655, .ok (.int 340))]),
      ("max_potency", [(.p655, .ok (.int 680))])]),
    (100, [
      ("min_potency", [(.p70, .ok (.int 340))]),
      ("max_potency", [(.p70, .ok (.int 680))])])]),
  ("Crowned Collider (pet)", [
    (90, [
      ("min_potency", [(.p655, .ok (.int 390))]),
      ("max_potency", [(.p655, .ok (.int 780))])]),
    (100, [
      ("min_potency", [(.p70, .ok (.int 390))]),
      ("max_potency", [(.p70, .ok (.int 780))])])])]

/-- class_skills/ranged/mch.py:25 -/
def const_OVERHEATED_BONUS_POTENCY : PyVal := (.int 20)

/-- class_skills/ranged/mch.py:31-37 `battery` -/
def battery (_env : Env) : Py PyVal := do
  let name : PyVal := (.str "Battery")
  let job_resource_settings : PyVal := (← newJobResourceSettings {
    max_value := (.int 100)
    skill_allowlist := (.tuple [(.str "Automaton Queen")]) })
  return (.tuple [name, job_resource_settings])

/-- class_skills/ranged/mch.py:39-45 `gcd` -/
def gcd (_env : Env) : Py PyVal := do
  let name : PyVal := (.str "GCD")
  let job_resource_settings : PyVal := (← newJobResourceSettings {
    max_value := (.int 6)
    skill_allowlist := (.tuple [(.str "Wildfire (dot)"), (.str "Detonator")]) })
  return (.tuple [name, job_resource_settings])

/-- class_skills/ranged/mch.py:47-48 `__get_gcd_job_resouce_increase` -/
def get_gcd_job_resouce_increase (_env : Env) : Py PyVal := do
  return (← newJobResourceSpec { name := (.str "GCD"), change := (← PyVal.pos (.int 1)) })

/-- class_skills/ranged/mch.py:50-76 `__get_arm_punch_follow_ups` -/
def get_arm_punch_follow_ups (env : Env) : Py PyVal := do
  let mut follow_ups : PyVal := .unbound
  let mut skill : PyVal := .unbound
  let mut delay : PyVal := .unbound
  let name : PyVal := (.str "Arm Punch (pet)")
  let min_potency : PyVal := (← getSkillData table env name (.str "min_potency"))
  let max_potency : PyVal := (← getSkillData table env name (.str "max_potency"))
  let battery_range : PyVal := (.int 50)
  let slope : PyVal := (← PyVal.div (← PyVal.sub max_potency min_potency) battery_range)
  follow_ups := (mkDict [])
  for battery in (← PyVal.iter (← PyVal.range (.int 50) (.int 110) (.int 10))) do
    skill := (← newSkill {
      name := name
      status_effect_denylist := (.tuple [(.str "Dragon Sight")])
      damage_spec := (← newDamageSpec {
        potency := (← PyVal.toInt (← PyVal.add (← PyVal.mul (← PyVal.sub battery (.int 50)) slope) min_potency))
        damage_class := (.damageClass .pet)
        pet_job_mod_override := (.int 100) }) })
    follow_ups := (← PyVal.setItem follow_ups battery (mkDict []))
    for hit in (← PyVal.iter (← PyVal.range (.int 0) (.int 5) (.int 1))) do
      delay := (← PyVal.toInt (← PyVal.mul (← PyVal.add (.float (55 / 10)) (← PyVal.mul (.float (16 / 10)) hit)) (.int 1000)))
      follow_ups := (← PyVal.setItem follow_ups battery (← PyVal.setItem (← PyVal.getItem follow_ups battery) hit (← newFollowUp {
        skill := skill
        delay_after_parent_application := delay
        snapshot_buffs_with_parent := (.bool false)
        snapshot_debuffs_with_parent := (.bool false) })))
  return follow_ups

/-- class_skills/ranged/mch.py:78-101 `__get_roller_dash_follow_up` -/
def get_roller_dash_follow_up (env : Env) : Py PyVal := do
  let mut follow_up : PyVal := .unbound
  let mut skill : PyVal := .unbound
  let name : PyVal := (.str "Roller Dash (pet)")
  let min_potency : PyVal := (← getSkillData table env name (.str "min_potency"))
  let max_potency : PyVal := (← getSkillData table env name (.str "max_potency"))
  let battery_range : PyVal := (.int 50)
  let slope : PyVal := (← PyVal.div (← PyVal.sub max_potency min_potency) battery_range)
  follow_up := (mkDict [])
  for battery in (← PyVal.iter (← PyVal.range (.int 50) (.int 110) (.int 10))) do
    skill := (← newSkill {
      name := name
      status_effect_denylist := (.tuple [(.str "Dragon Sight")])
      damage_spec := (← newDamageSpec {
        potency := (← PyVal.toInt (← PyVal.add (← PyVal.mul (← PyVal.sub battery (.int 50)) slope) min_potency))
        damage_class := (.damageClass .pet)
        pet_job_mod_override := (.int 100) }) })
    follow_up := (← PyVal.setItem follow_up battery (← newFollowUp {
      skill := skill
      delay_after_parent_application := (← PyVal.toInt (← PyVal.mul (.float (55 / 10)) (.int 1000)))
      snapshot_buffs_with_parent := (.bool false)
      snapshot_debuffs_with_parent := (.bool false) }))
  return follow_up

/-- class_skills/ranged/mch.py:103-126 `__get_pile_bunker_follow_up` -/
def get_pile_bunker_follow_up (env : Env) : Py PyVal := do
  let mut follow_up : PyVal := .unbound
  let mut skill : PyVal := .unbound
  let name : PyVal := (.str "Pile Bunker (pet)")
  let min_potency : PyVal := (← getSkillData table env name (.str "min_potency"))
  let max_potency : PyVal := (← getSkillData table env name (.str "max_potency"))
  let battery_range : PyVal := (.int 50)
  let slope : PyVal := (← PyVal.div (← PyVal.sub max_potency min_potency) battery_range)
  follow_up := (mkDict [])
  for battery in (← PyVal.iter (← PyVal.range (.int 50) (.int 110) (.int 10))) do
    skill := (← newSkill {
      name := name
      status_effect_denylist := (.tuple [(.str "Dragon Sight")])
      damage_spec := (← newDamageSpec {
        potency := (← PyVal.toInt (← PyVal.add (← PyVal.mul (← PyVal.sub battery (.int 50)) slope) min_potency))
        damage_class := (.damageClass .pet)
        pet_job_mod_override := (.int 100) }) })
    follow_up := (← PyVal.setItem follow_up battery (← newFollowUp {
      skill := skill
      delay_after_parent_application := (← PyVal.toInt (← PyVal.mul (← PyVal.add (.float (55 / 10)) (← PyVal.mul (.int 5) (.float (16 / 10)))) (.int 1000)))
      snapshot_buffs_with_parent := (.bool false)
      snapshot_debuffs_with_parent := (.bool false) }))
  return follow_up

/-- class_skills/ranged/mch.py:128-151 `__get_crowned_collider_follow_up` -/
def get_crowned_collider_follow_up (env : Env) : Py PyVal := do
  let mut follow_up : PyVal := .unbound
  let mut skill : PyVal := .unbound
  let name : PyVal := (.str "Crowned Collider (pet)")
  let min_potency : PyVal := (← getSkillData table env name (.str "min_potency"))
  let max_potency : PyVal := (← getSkillData table env name (.str "max_potency"))
  let battery_range : PyVal := (.int 50)
  let slope : PyVal := (← PyVal.div (← PyVal.sub max_potency min_potency) battery_range)
  follow_up := (mkDict [])
  for battery in (← PyVal.iter (← PyVal.range (.int 50) (.int 110) (.int 10))) do
    skill := (← newSkill {
      name := name
      status_effect_denylist := (.tuple [(.str "Dragon Sight")])
      damage_spec := (← newDamageSpec {
        potency := (← PyVal.toInt (← PyVal.add (← PyVal.mul (← PyVal.sub battery (.int 50)) slope) min_potency))
        damage_class := (.damageClass .pet)
        pet_job_mod_override := (.int 100) }) })
    follow_up := (← PyVal.setItem follow_up battery (← newFollowUp {
      skill := skill
      delay_after_parent_application := (← PyVal.toInt (← PyVal.mul (← PyVal.add (← PyVal.add (.float (55 / 10)) (← PyVal.mul (.int 5) (.float (16 / 10)))) (.int 2)) (.int 1000)))
      snapshot_buffs_with_parent := (.bool false)
      snapshot_debuffs_with_parent := (.bool false) }))
  return follow_up

/-- class_skills/ranged/mch.py:153-172 `__get_flamethrower_follow_ups` -/
def get_flamethrower_follow_ups (env : Env) : Py PyVal := do
  let mut follow_ups : PyVal := .unbound
  let name : PyVal := (.str "Flamethrower (dot)")
  let flamethrower_dot : PyVal := (← newSkill {
    name := name
    damage_spec := (← newDamageSpec {
      potency := (← getPotency table env name)
      damage_class := (.damageClass .physicalDot) }) })
  follow_ups := (mkDict [])
  for i in (← PyVal.iter (← PyVal.range (.int 0) (.int 11) (.int 1))) do
    follow_ups := (← PyVal.setItem follow_ups i (← newFollowUp {
      skill := flamethrower_dot
      delay_after_parent_application := (.int 0)
      dot_duration := (← PyVal.mul i (.int 1000))
      snapshot_buffs_with_parent := (.bool true)
      snapshot_debuffs_with_parent := (.bool true)
      primary_target_only := (.bool false) }))
  return follow_ups

/-- class_skills/ranged/mch.py:174-183 `__get_wildfire_damage_spec` -/
def get_wildfire_damage_spec (_env : Env) : Py PyVal := do
  let mut wildfire_damage_spec : PyVal := .unbound
  wildfire_damage_spec := (mkDict [])
  for i in (← PyVal.iter (← PyVal.range (.int 0) (.int 7) (.int 1))) do
    wildfire_damage_spec := (← PyVal.setItem wildfire_damage_spec (← PyVal.fstring [i, (.str " GCD")]) (← newDamageSpec {
      potency := (← PyVal.mul i (.int 240))
      guaranteed_crit := (.forced .forceNo)
      guaranteed_dh := (.forced .forceNo) }))
  wildfire_damage_spec := (← PyVal.setItem wildfire_damage_spec (.str SimConsts.DEFAULT_CONDITION) (← newDamageSpec { potency := (.int 0) }))
  return wildfire_damage_spec

/-- class_skills/ranged/mch.py:185-195 `auto` -/
def auto (_env : Env) : Py PyVal := do
  let name : PyVal := (.str "Shot")
  return (← newSkill {
    name := name
    is_GCD := (.bool false)
    timing_spec := (← shotTimingSpec)
    damage_spec := (← newDamageSpec {
      potency := (.int 80)
      damage_class := (.damageClass .auto)
      trait_damage_mult_override := (.int 1) }) })

/-- class_skills/ranged/mch.py:197-207 `gauss_round` -/
def gauss_round (env : Env) : Py PyVal := do
  let name : PyVal := (.str "Gauss Round")
  return (← newSkill {
    name := name
    is_GCD := (.bool false)
    damage_spec := (← newDamageSpec { potency := (← getPotency table env name) })
    timing_spec := (← newTimingSpec {
      base_cast_time := (.int 0)
      animation_lock := (.int 650)
      application_delay := (.int 800) }) })

/-- class_skills/ranged/mch.py:209-239 `heat_blast` -/
def heat_blast (env : Env) : Py PyVal := do
  let name : PyVal := (.str "Heat Blast")
  return (← newSkill {
    name := name
    is_GCD := (.bool true)
    damage_spec := (mkDict [
      ((.str SimConsts.DEFAULT_CONDITION), (← newDamageSpec { potency := (← getPotency table env name) })),
      ((.str "Reassemble"), (← newDamageSpec {
        potency := (← getPotency table env name)
        guaranteed_crit := (.forced .forceYes)
        guaranteed_dh := (.forced .forceYes) })),
      ((.str "Overheated"), (← newDamageSpec {
        potency := (← PyVal.add (← getPotency table env name) const_OVERHEATED_BONUS_POTENCY) })),
      ((.str "Overheated, Reassemble"), (← newDamageSpec {
        potency := (← PyVal.add (← getPotency table env name) const_OVERHEATED_BONUS_POTENCY)
        guaranteed_crit := (.forced .forceYes)
        guaranteed_dh := (.forced .forceYes) }))])
    timing_spec := (← newTimingSpec {
      base_cast_time := (.int 0)
      gcd_base_recast_time := (.int 1500)
      application_delay := (.int 620) })
    job_resource_spec := (.tuple [(← get_gcd_job_resouce_increase env)]) })

/-- class_skills/ranged/mch.py:241-269 `wildfire` -/
def wildfire (env : Env) : Py PyVal := do
  let mut name : PyVal := .unbound
  name := (.str "Wildfire (dot)")
  let wildfire_skill : PyVal := (← newSkill {
    name := name
    is_GCD := (.bool false)
    job_resources_snapshot := (.bool false)
    damage_spec := (← get_wildfire_damage_spec env)
    job_resource_spec := (.tuple [(← newJobResourceSpec { name := (.str "GCD"), change := (← PyVal.neg (.inf)) })]) })
  let wildfire_follow_up : PyVal := (← newFollowUp {
    skill := wildfire_skill
    snapshot_buffs_with_parent := (.bool true)
    snapshot_debuffs_with_parent := (.bool true)
    delay_after_parent_application := (← PyVal.mul (.int 10) (.int 1000)) })
  name := (.str "Wildfire")
  return (← newSkill {
    name := name
    is_GCD := (.bool false)
    timing_spec := (← newTimingSpec {
      base_cast_time := (.int 0)
      animation_lock := (.int 650)
      application_delay := (.int 670) })
    follow_up_skills := (mkDict [
      ((.str SimConsts.DEFAULT_CONDITION), (.tuple [wildfire_follow_up])),
      ((.str "Manual"), (.tuple []))])
    job_resource_spec := (.tuple [(← newJobResourceSpec { name := (.str "GCD"), change := (← PyVal.neg (.inf)) })]) })

/-- class_skills/ranged/mch.py:271-282 `detonator` -/
def detonator (env : Env) : Py PyVal := do
  let name : PyVal := (.str "Detonator")
  return (← newSkill {
    name := name
    is_GCD := (.bool false)
    damage_spec := (← get_wildfire_damage_spec env)
    timing_spec := (← newTimingSpec {
      base_cast_time := (.int 0)
      animation_lock := (.int 650)
      application_delay := (.int 670) })
    job_resource_spec := (.tuple [(← newJobResourceSpec { name := (.str "GCD"), change := (← PyVal.neg (.inf)) })]) })

/-- class_skills/ranged/mch.py:284-300 `ricochet` -/
def ricochet (env : Env) : Py PyVal := do
  let name : PyVal := (.str "Ricochet")
  return (← newSkill {
    name := name
    is_GCD := (.bool false)
    damage_spec := (mkDict [
      ((.str SimConsts.DEFAULT_CONDITION), (← newDamageSpec { potency := (← getPotency table env name) }))])
    timing_spec := (← newTimingSpec {
      base_cast_time := (.int 0)
      animation_lock := (.int 650)
      application_delay := (.int 620) })
    has_aoe := (.bool true)
    aoe_dropoff := (.float (5 / 10)) })

/-- class_skills/ranged/mch.py:302-333 `auto_crossbow` -/
def auto_crossbow (env : Env) : Py PyVal := do
  let name : PyVal := (.str "Auto Crossbow")
  return (← newSkill {
    name := name
    is_GCD := (.bool true)
    damage_spec := (mkDict [
      ((.str SimConsts.DEFAULT_CONDITION), (← newDamageSpec { potency := (← getPotency table env name) })),
      ((.str "Reassemble"), (← newDamageSpec {
        potency := (← getPotency table env name)
        guaranteed_crit := (.forced .forceYes)
        guaranteed_dh := (.forced .forceYes) })),
      ((.str "Overheated"), (← newDamageSpec {
        potency := (← PyVal.add (← getPotency table env name) const_OVERHEATED_BONUS_POTENCY) })),
      ((.str "Overheated, Reassemble"), (← newDamageSpec {
        potency := (← PyVal.add (← getPotency table env name) const_OVERHEATED_BONUS_POTENCY)
        guaranteed_crit := (.forced .forceYes)
        guaranteed_dh := (.forced .forceYes) }))])
    timing_spec := (← newTimingSpec {
      base_cast_time := (.int 0)
      gcd_base_recast_time := (.int 1500)
      application_delay := (.int 890) })
    job_resource_spec := (.tuple [(← get_gcd_job_resouce_increase env)])
    has_aoe := (.bool true) })

/-- class_skills/ranged/mch.py:335-366 `heated_split_shot` -/
def heated_split_shot (env : Env) : Py PyVal := do
  let name : PyVal := (.str "Heated Split Shot")
  return (← newSkill {
    name := name
    is_GCD := (.bool true)
    damage_spec := (mkDict [
      ((.str SimConsts.DEFAULT_CONDITION), (← newDamageSpec { potency := (← getPotency table env name) })),
      ((.str "Reassemble"), (← newDamageSpec {
        potency := (← getPotency table env name)
        guaranteed_crit := (.forced .forceYes)
        guaranteed_dh := (.forced .forceYes) })),
      ((.str "Overheated"), (← newDamageSpec {
        potency := (← PyVal.add (← getPotency table env name) const_OVERHEATED_BONUS_POTENCY) })),
      ((.str "Overheated, Reassemble"), (← newDamageSpec {
        potency := (← PyVal.add (← getPotency table env name) const_OVERHEATED_BONUS_POTENCY)
        guaranteed_crit := (.forced .forceYes)
        guaranteed_dh := (.forced .forceYes) }))])
    timing_spec := (← newTimingSpec {
      base_cast_time := (.int 0)
      animation_lock := (.int 650)
      application_delay := (.int 800) })
    combo_spec := (.tuple [(← newComboSpec {})])
    job_resource_spec := (.tuple [(← get_gcd_job_resouce_increase env)]) })

/-- class_skills/ranged/mch.py:368-398 `drill` -/
def drill (env : Env) : Py PyVal := do
  let name : PyVal := (.str "Drill")
  return (← newSkill {
    name := name
    is_GCD := (.bool true)
    damage_spec := (mkDict [
      ((.str SimConsts.DEFAULT_CONDITION), (← newDamageSpec { potency := (← getPotency table env name) })),
      ((.str "Reassemble"), (← newDamageSpec {
        potency := (← getPotency table env name)
        guaranteed_crit := (.forced .forceYes)
        guaranteed_dh := (.forced .forceYes) })),
      ((.str "Overheated"), (← newDamageSpec {
        potency := (← PyVal.add (← getPotency table env name) const_OVERHEATED_BONUS_POTENCY) })),
      ((.str "Overheated, Reassemble"), (← newDamageSpec {
        potency := (← PyVal.add (← getPotency table env name) const_OVERHEATED_BONUS_POTENCY)
        guaranteed_crit := (.forced .forceYes)
        guaranteed_dh := (.forced .forceYes) }))])
    timing_spec := (← newTimingSpec {
      base_cast_time := (.int 0)
      animation_lock := (.int 650)
      application_delay := (.int 1150) })
    job_resource_spec := (.tuple [(← get_gcd_job_resouce_increase env)]) })

/-- class_skills/ranged/mch.py:400-449 `heated_slug_shot` -/
def heated_slug_shot (env : Env) : Py PyVal := do
  let name : PyVal := (.str "Heated Slug Shot")
  return (← newSkill {
    name := name
    is_GCD := (.bool true)
    damage_spec := (mkDict [
      ((.str SimConsts.DEFAULT_CONDITION), (← newDamageSpec { potency := (← getPotency table env name) })),
      ((.str "Reassemble"), (← newDamageSpec {
        potency := (← getPotency table env name)
        guaranteed_crit := (.forced .forceYes)
        guaranteed_dh := (.forced .forceYes) })),
      ((.str "No Combo"), (← newDamageSpec { potency := (← getPotencyNoCombo table env name) })),
      ((.str "No Combo, Reassemble"), (← newDamageSpec {
        potency := (← getPotencyNoCombo table env name)
        guaranteed_crit := (.forced .forceYes)
        guaranteed_dh := (.forced .forceYes) })),
      ((.str "Overheated"), (← newDamageSpec {
        potency := (← PyVal.add (← getPotency table env name) const_OVERHEATED_BONUS_POTENCY) })),
      ((.str "Overheated, Reassemble"), (← newDamageSpec {
        potency := (← PyVal.add (← getPotency table env name) const_OVERHEATED_BONUS_POTENCY)
        guaranteed_crit := (.forced .forceYes)
        guaranteed_dh := (.forced .forceYes) })),
      ((.str "No Combo, Overheated"), (← newDamageSpec {
        potency := (← PyVal.add (← getPotencyNoCombo table env name) const_OVERHEATED_BONUS_POTENCY) })),
      ((.str "No Combo, Overheated, Reassemble"), (← newDamageSpec {
        potency := (← PyVal.add (← getPotencyNoCombo table env name) const_OVERHEATED_BONUS_POTENCY)
        guaranteed_crit := (.forced .forceYes)
        guaranteed_dh := (.forced .forceYes) }))])
    timing_spec := (← newTimingSpec {
      base_cast_time := (.int 0)
      animation_lock := (.int 650)
      application_delay := (.int 800) })
    combo_spec := (.tuple [(← newComboSpec { combo_actions := (.tuple [(.str "Heated Split Shot")]) })])
    job_resource_spec := (.tuple [(← get_gcd_job_resouce_increase env)]) })

/-- class_skills/ranged/mch.py:451-503 `heated_clean_shot` -/
def heated_clean_shot (env : Env) : Py PyVal := do
  let name : PyVal := (.str "Heated Clean Shot")
  return (← newSkill {
    name := name
    is_GCD := (.bool true)
    damage_spec := (mkDict [
      ((.str SimConsts.DEFAULT_CONDITION), (← newDamageSpec { potency := (← getPotency table env name) })),
      ((.str "Reassemble"), (← newDamageSpec {
        potency := (← getPotency table env name)
        guaranteed_crit := (.forced .forceYes)
        guaranteed_dh := (.forced .forceYes) })),
      ((.str "No Combo"), (← newDamageSpec { potency := (← getPotencyNoCombo table env name) })),
      ((.str "No Combo, Reassemble"), (← newDamageSpec {
        potency := (← getPotencyNoCombo table env name)
        guaranteed_crit := (.forced .forceYes)
        guaranteed_dh := (.forced .forceYes) })),
      ((.str "Overheated"), (← newDamageSpec {
        potency := (← PyVal.add (← getPotency table env name) const_OVERHEATED_BONUS_POTENCY) })),
      ((.str "Overheated, Reassemble"), (← newDamageSpec {
        potency := (← PyVal.add (← getPotency table env name) const_OVERHEATED_BONUS_POTENCY)
        guaranteed_crit := (.forced .forceYes)
        guaranteed_dh := (.forced .forceYes) })),
      ((.str "No Combo, Overheated"), (← newDamageSpec {
        potency := (← PyVal.add (← getPotencyNoCombo table env name) const_OVERHEATED_BONUS_POTENCY) })),
      ((.str "No Combo, Overheated, Reassemble"), (← newDamageSpec {
        potency := (← PyVal.add (← getPotencyNoCombo table env name) const_OVERHEATED_BONUS_POTENCY)
        guaranteed_crit := (.forced .forceYes)
        guaranteed_dh := (.forced .forceYes) }))])
    timing_spec := (← newTimingSpec {
      base_cast_time := (.int 0)
      animation_lock := (.int 650)
      application_delay := (.int 800) })
    combo_spec := (.tuple [(← newComboSpec { combo_actions := (.tuple [(.str "Heated Slug Shot")]) })])
    job_resource_spec := (.tuple [
      (← newJobResourceSpec { name := (.str "Battery"), change := (← PyVal.pos (.int 10)) }),
      (← get_gcd_job_resouce_increase env)]) })

/-- class_skills/ranged/mch.py:505-537 `blazing_shot` -/
def blazing_shot (env : Env) : Py PyVal := do
  if env.lt .p70 then
    return .none
  let name : PyVal := (.str "Blazing Shot")
  return (← newSkill {
    name := name
    is_GCD := (.bool true)
    damage_spec := (mkDict [
      ((.str SimConsts.DEFAULT_CONDITION), (← newDamageSpec { potency := (← getPotency table env name) })),
      ((.str "Reassemble"), (← newDamageSpec {
        potency := (← getPotency table env name)
        guaranteed_crit := (.forced .forceYes)
        guaranteed_dh := (.forced .forceYes) })),
      ((.str "Overheated"), (← newDamageSpec {
        potency := (← PyVal.add (← getPotency table env name) const_OVERHEATED_BONUS_POTENCY) })),
      ((.str "Overheated, Reassemble"), (← newDamageSpec {
        potency := (← PyVal.add (← getPotency table env name) const_OVERHEATED_BONUS_POTENCY)
        guaranteed_crit := (.forced .forceYes)
        guaranteed_dh := (.forced .forceYes) }))])
    timing_spec := (← newTimingSpec {
      base_cast_time := (.int 0)
      animation_lock := (.int 650)
      application_delay := (.int 850) })
    job_resource_spec := (.tuple [(← get_gcd_job_resouce_increase env)]) })

/-- class_skills/ranged/mch.py:539-589 `bioblaster` -/
def bioblaster (env : Env) : Py PyVal := do
  let mut name : PyVal := .unbound
  name := (.str "Bioblaster (dot)")
  let bioblaster_dot : PyVal := (← newSkill {
    name := name
    is_GCD := (.bool false)
    damage_spec := (← newDamageSpec {
      potency := (← getPotency table env name)
      damage_class := (.damageClass .physicalDot) }) })
  let bioblaster_follow_up : PyVal := (← newFollowUp {
    skill := bioblaster_dot
    delay_after_parent_application := (.int 0)
    dot_duration := (← PyVal.mul (.int 15) (.int 1000))
    snapshot_buffs_with_parent := (.bool true)
    snapshot_debuffs_with_parent := (.bool true)
    primary_target_only := (.bool false) })
  name := (.str "Bioblaster")
  return (← newSkill {
    name := name
    is_GCD := (.bool true)
    has_aoe := (.bool true)
    damage_spec := (mkDict [
      ((.str SimConsts.DEFAULT_CONDITION), (← newDamageSpec { potency := (← getPotency table env name) })),
      ((.str "Reassemble"), (← newDamageSpec {
        potency := (← getPotency table env name)
        guaranteed_crit := (.forced .forceYes)
        guaranteed_dh := (.forced .forceYes) })),
      ((.str "Overheated"), (← newDamageSpec {
        potency := (← PyVal.add (← getPotency table env name) const_OVERHEATED_BONUS_POTENCY) })),
      ((.str "Overheated, Reassemble"), (← newDamageSpec {
        potency := (← PyVal.add (← getPotency table env name) const_OVERHEATED_BONUS_POTENCY)
        guaranteed_crit := (.forced .forceYes)
        guaranteed_dh := (.forced .forceYes) }))])
    timing_spec := (← newTimingSpec {
      base_cast_time := (.int 0)
      animation_lock := (.int 650)
      application_delay := (.int 970) })
    follow_up_skills := (.tuple [bioblaster_follow_up])
    job_resource_spec := (.tuple [(← get_gcd_job_resouce_increase env)]) })

/-- class_skills/ranged/mch.py:591-618 `flamethrower` -/
def flamethrower (env : Env) : Py PyVal := do
  let mut flamethrower_follow_up_dict : PyVal := .unbound
  let mut flamethrower_timing_specs_dict : PyVal := .unbound
  let flamethrower_follow_ups : PyVal := (← get_flamethrower_follow_ups env)
  flamethrower_follow_up_dict := (mkDict [])
  flamethrower_timing_specs_dict := (mkDict [])
  for i in (← PyVal.iter (← PyVal.range (.int 0) (.int 11) (.int 1))) do
    flamethrower_follow_up_dict := (← PyVal.setItem flamethrower_follow_up_dict (← PyVal.fstring [i, (.str "s")]) (.tuple [(← PyVal.getItem flamethrower_follow_ups i)]))
    flamethrower_timing_specs_dict := (← PyVal.setItem flamethrower_timing_specs_dict (← PyVal.fstring [i, (.str "s")]) (← newTimingSpec {
      base_cast_time := (← PyVal.mul i (.int 1000))
      gcd_base_recast_time := (← PyVal.mul i (.int 1000))
      application_delay := (.int 890) }))
  flamethrower_follow_up_dict := (← PyVal.setItem flamethrower_follow_up_dict (.str SimConsts.DEFAULT_CONDITION) (.tuple [(← PyVal.getItem flamethrower_follow_ups (.int 0))]))
  flamethrower_timing_specs_dict := (← PyVal.setItem flamethrower_timing_specs_dict (.str SimConsts.DEFAULT_CONDITION) (← newTimingSpec {
    base_cast_time := (.int 0)
    gcd_base_recast_time := (.int 0)
    application_delay := (.int 890) }))
  let name : PyVal := (.str "Flamethrower")
  return (← newSkill {
    name := name
    timing_spec := flamethrower_timing_specs_dict
    follow_up_skills := flamethrower_follow_up_dict })

/-- class_skills/ranged/mch.py:620-653 `air_anchor` -/
def air_anchor (env : Env) : Py PyVal := do
  let name : PyVal := (.str "Air Anchor")
  return (← newSkill {
    name := name
    is_GCD := (.bool true)
    damage_spec := (mkDict [
      ((.str SimConsts.DEFAULT_CONDITION), (← newDamageSpec { potency := (← getPotency table env name) })),
      ((.str "Reassemble"), (← newDamageSpec {
        potency := (← getPotency table env name)
        guaranteed_crit := (.forced .forceYes)
        guaranteed_dh := (.forced .forceYes) })),
      ((.str "Overheated"), (← newDamageSpec {
        potency := (← PyVal.add (← getPotency table env name) const_OVERHEATED_BONUS_POTENCY) })),
      ((.str "Overheated, Reassemble"), (← newDamageSpec {
        potency := (← PyVal.add (← getPotency table env name) const_OVERHEATED_BONUS_POTENCY)
        guaranteed_crit := (.forced .forceYes)
        guaranteed_dh := (.forced .forceYes) }))])
    timing_spec := (← newTimingSpec {
      base_cast_time := (.int 0)
      animation_lock := (.int 650)
      application_delay := (.int 1150) })
    job_resource_spec := (.tuple [
      (← newJobResourceSpec { name := (.str "Battery"), change := (← PyVal.pos (.int 20)) }),
      (← get_gcd_job_resouce_increase env)]) })

/-- class_skills/ranged/mch.py:655-714 `automaton_queen` -/
def automaton_queen (env : Env) : Py PyVal := do
  let mut queen_follow_ups : PyVal := .unbound
  let name : PyVal := (.str "Automaton Queen")
  let arm_punch_follow_ups : PyVal := (← get_arm_punch_follow_ups env)
  let roller_dash_follow_up : PyVal := (← get_roller_dash_follow_up env)
  let pile_bunker_follow_up : PyVal := (← get_pile_bunker_follow_up env)
  let crowned_collider_follow_up : PyVal := (← get_crowned_collider_follow_up env)
  queen_follow_ups := (mkDict [])
  queen_follow_ups := (← PyVal.setItem queen_follow_ups (.str "Ranged") (.tuple [
    (← PyVal.getItem roller_dash_follow_up (.int 100)),
    (← PyVal.getItem (← PyVal.getItem arm_punch_follow_ups (.int 100)) (.int 2)),
    (← PyVal.getItem (← PyVal.getItem arm_punch_follow_ups (.int 100)) (.int 3)),
    (← PyVal.getItem (← PyVal.getItem arm_punch_follow_ups (.int 100)) (.int 4)),
    (← PyVal.getItem pile_bunker_follow_up (.int 100)),
    (← PyVal.getItem crowned_collider_follow_up (.int 100))]))
  queen_follow_ups := (← PyVal.setItem queen_follow_ups (.str "Melee") (.tuple [
    (← PyVal.getItem (← PyVal.getItem arm_punch_follow_ups (.int 100)) (.int 0)),
    (← PyVal.getItem (← PyVal.getItem arm_punch_follow_ups (.int 100)) (.int 1)),
    (← PyVal.getItem (← PyVal.getItem arm_punch_follow_ups (.int 100)) (.int 2)),
    (← PyVal.getItem (← PyVal.getItem arm_punch_follow_ups (.int 100)) (.int 3)),
    (← PyVal.getItem (← PyVal.getItem arm_punch_follow_ups (.int 100)) (.int 4)),
    (← PyVal.getItem pile_bunker_follow_up (.int 100)),
    (← PyVal.getItem crowned_collider_follow_up (.int 100))]))
  for battery in (← PyVal.iter (← PyVal.range (.int 50) (.int 110) (.int 10))) do
    queen_follow_ups := (← PyVal.setItem queen_follow_ups (← PyVal.fstring [battery, (.str " Battery")]) (.tuple [
      (← PyVal.getItem roller_dash_follow_up battery),
      (← PyVal.getItem (← PyVal.getItem arm_punch_follow_ups battery) (.int 2)),
      (← PyVal.getItem (← PyVal.getItem arm_punch_follow_ups battery) (.int 3)),
      (← PyVal.getItem (← PyVal.getItem arm_punch_follow_ups battery) (.int 4)),
      (← PyVal.getItem pile_bunker_follow_up battery),
      (← PyVal.getItem crowned_collider_follow_up battery)]))
    queen_follow_ups := (← PyVal.setItem queen_follow_ups (← PyVal.fstring [battery, (.str " Battery, Ranged")]) (.tuple [
      (← PyVal.getItem roller_dash_follow_up battery),
      (← PyVal.getItem (← PyVal.getItem arm_punch_follow_ups battery) (.int 2)),
      (← PyVal.getItem (← PyVal.getItem arm_punch_follow_ups battery) (.int 3)),
      (← PyVal.getItem (← PyVal.getItem arm_punch_follow_ups battery) (.int 4)),
      (← PyVal.getItem pile_bunker_follow_up battery),
      (← PyVal.getItem crowned_collider_follow_up battery)]))
    queen_follow_ups := (← PyVal.setItem queen_follow_ups (← PyVal.fstring [battery, (.str " Battery, Melee")]) (.tuple [
      (← PyVal.getItem (← PyVal.getItem arm_punch_follow_ups battery) (.int 0)),
      (← PyVal.getItem (← PyVal.getItem arm_punch_follow_ups battery) (.int 1)),
      (← PyVal.getItem (← PyVal.getItem arm_punch_follow_ups battery) (.int 2)),
      (← PyVal.getItem (← PyVal.getItem arm_punch_follow_ups battery) (.int 3)),
      (← PyVal.getItem (← PyVal.getItem arm_punch_follow_ups battery) (.int 4)),
      (← PyVal.getItem pile_bunker_follow_up battery),
      (← PyVal.getItem crowned_collider_follow_up battery)]))
  return (← newSkill {
    name := name
    is_GCD := (.bool false)
    timing_spec := (← instantTimingSpec)
    follow_up_skills := queen_follow_ups
    job_resource_spec := (.tuple [
      (← newJobResourceSpec { name := (.str "Battery"), change := (← PyVal.neg (.inf)) })]) })

/-- class_skills/ranged/mch.py:716-737 `scattergun` -/
def scattergun (env : Env) : Py PyVal := do
  let name : PyVal := (.str "Scattergun")
  return (← newSkill {
    name := name
    is_GCD := (.bool true)
    has_aoe := (.bool true)
    damage_spec := (mkDict [
      ((.str SimConsts.DEFAULT_CONDITION), (← newDamageSpec { potency := (← getPotency table env name) })),
      ((.str "Reassemble"), (← newDamageSpec {
        potency := (← getPotency table env name)
        guaranteed_crit := (.forced .forceYes)
        guaranteed_dh := (.forced .forceYes) }))])
    timing_spec := (← newTimingSpec {
      base_cast_time := (.int 0)
      animation_lock := (.int 650)
      application_delay := (.int 1150) })
    job_resource_spec := (.tuple [(← get_gcd_job_resouce_increase env)]) })

/-- class_skills/ranged/mch.py:739-764 `chain_saw` -/
def chain_saw (env : Env) : Py PyVal := do
  let name : PyVal := (.str "Chain Saw")
  return (← newSkill {
    name := name
    is_GCD := (.bool true)
    damage_spec := (mkDict [
      ((.str SimConsts.DEFAULT_CONDITION), (← newDamageSpec { potency := (← getPotency table env name) })),
      ((.str "Reassemble"), (← newDamageSpec {
        potency := (← getPotency table env name)
        guaranteed_crit := (.forced .forceYes)
        guaranteed_dh := (.forced .forceYes) }))])
    timing_spec := (← newTimingSpec {
      base_cast_time := (.int 0)
      animation_lock := (.int 650)
      application_delay := (.int 1030) })
    job_resource_spec := (.tuple [
      (← newJobResourceSpec { name := (.str "Battery"), change := (← PyVal.pos (.int 20)) }),
      (← get_gcd_job_resouce_increase env)])
    has_aoe := (.bool true)
    aoe_dropoff := (.float (65 / 100)) })

/-- class_skills/ranged/mch.py:766-792 `reassemble` -/
def reassemble (_env : Env) : Py PyVal := do
  let name : PyVal := (.str "Reassemble")
  return (← newSkill {
    name := name
    is_GCD := (.bool false)
    timing_spec := (← instantTimingSpec)
    buff_spec := (← newStatusEffectSpec {
      add_to_skill_modifier_condition := (.bool true)
      num_uses := (.int 1)
      duration := (← PyVal.mul (.int 5) (.int 1000))
      skill_allowlist := (.tuple [
        (.str "Heat Blast"), (.str "Auto Crossbow"), (.str "Heated Split Shot"), (.str "Drill"),
        (.str "Heated Slug Shot"), (.str "Heated Clean Shot"), (.str "Bioblaster"),
        (.str "Air Anchor"), (.str "Scattergun"), (.str "Blazing Shot"), (.str "Excavator"),
        (.str "Chain Saw")]) }) })

/-- class_skills/ranged/mch.py:794-826 `hypercharge` -/
def hypercharge (_env : Env) : Py PyVal := do
  let mut name : PyVal := .unbound
  name := (.str "Overheated")
  let overheated_buff : PyVal := (← newSkill {
    name := name
    is_GCD := (.bool false)
    buff_spec := (← newStatusEffectSpec {
      add_to_skill_modifier_condition := (.bool true)
      num_uses := (.int 5)
      duration := (← PyVal.mul (.int 10) (.int 1000))
      skill_allowlist := (.tuple [
        (.str "Heat Blast"), (.str "Auto Crossbow"), (.str "Heated Split Shot"), (.str "Drill"),
        (.str "Heated Slug Shot"), (.str "Heated Clean Shot"), (.str "Bioblaster"),
        (.str "Air Anchor"), (.str "Blazing Shot")]) }) })
  name := (.str "Hypercharge")
  return (← newSkill {
    name := name
    is_GCD := (.bool false)
    timing_spec := (← instantTimingSpec)
    follow_up_skills := (.tuple [
      (← newFollowUp { skill := overheated_buff, delay_after_parent_application := (.int 0) })]) })

/-- class_skills/ranged/mch.py:828-846 `checkmate` -/
def checkmate (env : Env) : Py PyVal := do
  if (env.lt .p70 || decide (env.level < 92)) then
    return .none
  let name : PyVal := (.str "Checkmate")
  return (← newSkill {
    name := name
    is_GCD := (.bool false)
    damage_spec := (mkDict [
      ((.str SimConsts.DEFAULT_CONDITION), (← newDamageSpec { potency := (← getPotency table env name) }))])
    timing_spec := (← newTimingSpec {
      base_cast_time := (.int 0)
      animation_lock := (.int 650)
      application_delay := (.int 710) })
    has_aoe := (.bool true)
    aoe_dropoff := (.float (5 / 10)) })

/-- class_skills/ranged/mch.py:848-866 `double_check` -/
def double_check (env : Env) : Py PyVal := do
  if (env.lt .p70 || decide (env.level < 92)) then
    return .none
  let name : PyVal := (.str "Double Check")
  return (← newSkill {
    name := name
    is_GCD := (.bool false)
    damage_spec := (mkDict [
      ((.str SimConsts.DEFAULT_CONDITION), (← newDamageSpec { potency := (← getPotency table env name) }))])
    timing_spec := (← newTimingSpec {
      base_cast_time := (.int 0)
      animation_lock := (.int 650)
      application_delay := (.int 710) })
    has_aoe := (.bool true)
    aoe_dropoff := (.float (5 / 10)) })

/-- class_skills/ranged/mch.py:868-895 `excavator` -/
def excavator (env : Env) : Py PyVal := do
  if (env.lt .p70 || decide (env.level < 96)) then
    return .none
  let name : PyVal := (.str "Excavator")
  return (← newSkill {
    name := name
    is_GCD := (.bool true)
    damage_spec := (mkDict [
      ((.str SimConsts.DEFAULT_CONDITION), (← newDamageSpec { potency := (← getPotency table env name) })),
      ((.str "Reassemble"), (← newDamageSpec {
        potency := (← getPotency table env name)
        guaranteed_crit := (.forced .forceYes)
        guaranteed_dh := (.forced .forceYes) }))])
    timing_spec := (← newTimingSpec {
      base_cast_time := (.int 0)
      animation_lock := (.int 650)
      application_delay := (.int 1070) })
    job_resource_spec := (.tuple [
      (← newJobResourceSpec { name := (.str "Battery"), change := (← PyVal.pos (.int 20)) }),
      (← get_gcd_job_resouce_increase env)])
    has_aoe := (.bool true)
    aoe_dropoff := (.float (65 / 100)) })

/-- class_skills/ranged/mch.py:897-918 `full_metal_field` -/
def full_metal_field (env : Env) : Py PyVal := do
  if (env.lt .p70 || decide (env.level < 100)) then
    return .none
  let name : PyVal := (.str "Full Metal Field")
  return (← newSkill {
    name := name
    is_GCD := (.bool true)
    damage_spec := (mkDict [
      ((.str SimConsts.DEFAULT_CONDITION), (← newDamageSpec {
        potency := (← getPotency table env name)
        guaranteed_crit := (.forced .forceYes)
        guaranteed_dh := (.forced .forceYes) }))])
    timing_spec := (← newTimingSpec {
      base_cast_time := (.int 0)
      animation_lock := (.int 650)
      application_delay := (.int 1030) })
    job_resource_spec := (.tuple [(← get_gcd_job_resouce_increase env)])
    has_aoe := (.bool true)
    aoe_dropoff := (.float (5 / 10)) })

/-- class_skills/ranged/mch.py:924-928 `tactician` -/
def tactician (_env : Env) : Py PyVal := do
  return (← newSkill {
    name := (.str "Tactician")
    is_GCD := (.bool false)
    timing_spec := (← instantTimingSpec) })

/-- class_skills/ranged/mch.py:930-934 `dismantle` -/
def dismantle (_env : Env) : Py PyVal := do
  return (← newSkill {
    name := (.str "Dismantle")
    is_GCD := (.bool false)
    timing_spec := (← instantTimingSpec) })

/-- class_skills/ranged/mch.py:936-940 `barrel_stabilizer` -/
def barrel_stabilizer (_env : Env) : Py PyVal := do
  return (← newSkill {
    name := (.str "Barrel Stabilizer")
    is_GCD := (.bool false)
    timing_spec := (← instantTimingSpec) })

/-- class_skills/ranged/mch.py:21-940 `MchSkills`; the methods in the order of `dir`. -/
def job (env : Env) : JobClass where
  jobClass := "MCH"
  skillMethods := [
    air_anchor env,
    auto env,
    auto_crossbow env,
    automaton_queen env,
    barrel_stabilizer env,
    bioblaster env,
    blazing_shot env,
    chain_saw env,
    checkmate env,
    detonator env,
    dismantle env,
    double_check env,
    drill env,
    excavator env,
    flamethrower env,
    full_metal_field env,
    gauss_round env,
    heat_blast env,
    heated_clean_shot env,
    heated_slug_shot env,
    heated_split_shot env,
    hypercharge env,
    reassemble env,
    ricochet env,
    scattergun env,
    tactician env,
    wildfire env]
  resourceMethods := [battery env, gcd env]

end Ama.GameData.Mch
