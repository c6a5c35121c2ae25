import Verif.Model.GameData.Values

/-!
# DRG

Model of `simulator/game_data/class_skills/melee/drg.py` and `simulator/game_data/class_skills/melee/drg_data.py`, written by
`tools/translate.py`: one function per method.  Paths in the comments are relative to
`simulator/game_data`.
-/

namespace Ama.GameData.Drg

open PyVal

/-- class_skills/melee/drg_data.py:7-151 `ALL_DATA` -/
def table : Table := [
  ("True Thrust", [
    (90, [("potency", [(.p655, .ok (.int 230))])]),
    (100, [("potency", [(.p70, .ok (.int 230))])])]),
  ("Vorpal Thrust", [
    (90, [
      ("potency", [(.p655, .ok (.int 280))]),
      ("potency_no_combo", [(.p655, .ok (.int 130))])])]),
  ("Piercing Talon", [
    (90, [
      ("potency", [(.p655, .ok (.int 150)), (.p71, .ok (.int 200))]),
      ("enhanced potency", [(.p71, .ok (.int 350))])]),
    (100, [
      ("potency", [(.p70, .ok (.int 150)), (.p71, .ok (.int 200))]),
      ("enhanced potency", [(.p71, .ok (.int 350))])])]),
  ("Disembowel", [
    (90, [
      ("potency", [(.p655, .ok (.int 250))]),
      ("potency_no_combo", [(.p655, .ok (.int 140))])])]),
  ("Lance Charge", [
    (90, [
      ("damage_mult", [(.p655, .ok (.float (11 / 10)))]),
      ("duration", [(.p655, do return (← PyVal.mul (.int 20) (.int 1000)))])]),
    (100, [
      ("damage_mult", [(.p70, .ok (.float (11 / 10)))]),
      ("duration", [(.p70, do return (← PyVal.mul (.int 20) (.int 1000)))])])]),
  ("Doom Spike", [
    (90, [("potency", [(.p655, .ok (.int 110))])]),
    (100, [("potency", [(.p70, .ok (.int 110))])])]),
  ("Spineshatter Dive", [(90, [("potency", [(.p655, .ok (.int 250))])])]),
  ("Dragonfire Dive", [
    (90, [("potency", [(.p655, .ok (.int 300)), (.p70, .ok (.int 500))])]),
    (100, [("potency", [(.p70, .ok (.int 500))])])]),
  ("Battle Litany", [
    (90, [
      ("crit_rate_add", [(.p655, .ok (.float (10 / 100)))]),
      ("duration", [(.p655, do return (← PyVal.mul (.int 15) (.int 1000)))])]),
    (100, [
      ("crit_rate_add", [(.p70, .ok (.float (10 / 100)))]),
      ("duration", [(.p70, do return (← PyVal.mul (.int 20) (.int 1000)))])])]),
  ("Fang and Claw", [
    (90, [
      ("potency", [(.p655, .ok (.int 300)), (.p70, .ok (.int 300))]),
      ("potency_no_pos", [(.p655, .ok (.int 260)), (.p70, .ok (.int 260))]),
      ("potency_no_combo", [(.p70, .ok (.int 140))]),
      ("potency_no_pos_no_combo", [(.p70, .ok (.int 100))]),
      ("potency_wheeling", [(.p655, .ok (.int 400))]),
      ("potency_wheeling_no_pos", [(.p655, .ok (.int 360))])]),
    (100, [
      ("potency", [(.p70, .ok (.int 340))]),
      ("potency_no_pos", [(.p70, .ok (.int 300))]),
      ("potency_no_combo", [(.p70, .ok (.int 180))]),
      ("potency_no_pos_no_combo", [(.p70, .ok (.int 140))])])]),
  ("Wheeling Thrust", [
    (90, [
      ("potency", [(.p655, .ok (.int 300)), (.p70, .ok (.int 300))]),
      ("potency_no_pos", [(.p655, .ok (.int 260)), (.p70, .ok (.int 260))]),
      ("potency_no_combo", [(.p70, .ok (.int 140))]),
      ("potency_no_pos_no_combo", [(.p70, .ok (.int 100))]),
      ("potency_fc", [(.p655, .ok (.int 400))]),
      ("potency_fc_no_pos", [(.p655, .ok (.int 360))])]),
    (100, [
      ("potency", [(.p70, .ok (.int 340))]),
      ("potency_no_pos", [(.p70, .ok (.int 300))]),
      ("potency_no_combo", [(.p70, .ok (.int 180))]),
      ("potency_no_pos_no_combo", [(.p70, .ok (.int 140))])])]),
  ("Geirskogul", [
    (90, [
      ("potency", [(.p655, .ok (.int 260)), (.p70, .ok (.int 280))]),
      ("aoe_dropoff", [(.p655, .ok (.float (3 / 10))), (.p70, .ok (.float (5 / 10)))])]),
    (100, [
      ("potency", [(.p70, .ok (.int 280))]),
      ("aoe_dropoff", [(.p70, .ok (.float (5 / 10)))])])]),
  ("Sonic Thrust", [
    (90, [
      ("potency", [(.p655, .ok (.int 120))]),
      ("potency_no_combo", [(.p655, .ok (.int 100))])]),
    (100, [
      ("potency", [(.p70, .ok (.int 120))]),
      ("potency_no_combo", [(.p70, .ok (.int 100))])])]),
  ("Mirage Dive", [
    (90, [("potency", [(.p655, .ok (.int 200)), (.p71, .ok (.int 380))])]),
    (100, [("potency", [(.p70, .ok (.int 200)), (.p71, .ok (.int 380))])])]),
  ("Nastrond", [
    (90, [("potency", [(.p655, .ok (.int 360)), (.p71, .ok (.int 720))])]),
    (100, [("potency", [(.p70, .ok (.int 360)), (.p71, .ok (.int 720))])])]),
  ("Coerthan Torment", [
    (90, [
      ("potency", [(.p655, .ok (.int 150))]),
      ("potency_no_combo", [(.p655, .ok (.int 100))])]),
    (100, [
      ("potency", [(.p70, .ok (.int 150))]),
      ("potency_no_combo", [(.p70, .ok (.int 100))])])]),
  ("High Jump", [
    (90, [("potency", [(.p655, .ok (.int 400))])]),
    (100, [("potency", [(.p70, .ok (.int 400))])])]),
  ("Raiden Thrust", [
    (90, [("potency", [(.p655, .ok (.int 280))])]),
    (100, [("potency", [(.p70, .ok (.int 320))])])]),
  ("Stardiver", [
    (90, [
      ("potency", [(.p655, .ok (.int 620)), (.p705, .ok (.int 620)), (.p71, .ok (.int 720))])]),
    (100, [
      ("potency", [(.p70, .ok (.int 620)), (.p705, .ok (.int 720)), (.p71, .ok (.int 820))])])]),
  ("Draconian Fury", [
    (90, [("potency", [(.p655, .ok (.int 130))])]),
    (100, [("potency", [(.p70, .ok (.int 130))])])]),
  ("Heavens' Thrust", [
    (90, [
      ("potency", [(.p655, .ok (.int 480)), (.p70, .ok (.int 400))]),
      ("potency_no_combo", [(.p655, .ok (.int 100))]),
      ("combo_action", [(.p655, .ok (.tuple [(.str "Vorpal Thrust")]))])]),
    (100, [
      ("potency", [(.p70, .ok (.int 440))]),
      ("potency_no_combo", [(.p70, .ok (.int 140))]),
      ("combo_action", [(.p70, .ok (.tuple [(.str "Lance Barrage")]))])])]),
  ("Chaotic Spring (dot)", [
    (90, [
      ("potency", [(.p655, .ok (.int 45))]),
      ("duration", [(.p655, do return (← PyVal.mul (.int 24) (.int 1000)))])]),
    (100, [
      ("potency", [(.p70, .ok (.int 45))]),
      ("duration", [(.p70, do return (← PyVal.mul (.int 24) (.int 1000)))])])]),
  ("Chaotic Spring", [
    (90, [
      ("potency", [(.p655, .ok (.int 300))]),
      ("potency_no_combo", [(.p655, .ok (.int 140))]),
      ("potency_no_pos", [(.p655, .ok (.int 260))]),
      ("potency_no_pos_no_combo", [(.p655, .ok (.int 100))]),
      ("combo_action", [(.p655, .ok (.tuple [(.str "Disembowel")]))])]),
    (100, [
      ("potency", [(.p70, .ok (.int 340))]),
      ("potency_no_combo", [(.p70, .ok (.int 180))]),
      ("potency_no_pos", [(.p70, .ok (.int 300))]),
      ("potency_no_pos_no_combo", [(.p70, .ok (.int 140))]),
      ("combo_action", [(.p70, .ok (.tuple [(.str "Spiral Blow")]))])])]),
  ("Wyrmwind Thrust", [
    (90, [("potency", [(.p655, .ok (.int 420))])]),
    (100, [("potency", [(.p70, .ok (.int 440))])])]),
  ("Rise of the Dragon", [(100, [("potency", [(.p70, .ok (.int 550))])])]),
  ("Lance Barrage", [
    (100, [
      ("potency", [(.p70, .ok (.int 340))]),
      ("potency_no_combo", [(.p70, .ok (.int 130))])])]),
  ("Spiral Blow", [
    (100, [
      ("potency", [(.p70, .ok (.int 340))]),
      ("potency_no_combo", [(.p70, .ok (.int 140))])])]),
  ("Starcross", [
    (100, [
      ("potency", [(.p70, .ok (.int 700)), (.p705, .ok (.int 900)), (.p71, .ok (.int 1000))])])]),
  ("Drakesbane", [
    (90, [("potency", [(.p70, .ok (.int 400))])]),
    (100, [("potency", [(.p70, .ok (.int 440))])])])]

/-- class_skills/melee/drg.py:22-39 `__drg_weapon_skills`, set by the constructor -/
def attr_drg_weapon_skills (_env : Env) : Py PyVal := do
  return (.tuple [
    (.str "True Thrust"), (.str "Vorpal Thrust"), (.str "Piercing Talon"),
    (.str "Disembowel"), (.str "Doom Spike"), (.str "Fang and Claw"),
    (.str "Wheeling Thrust"), (.str "Sonic Thrust"), (.str "Coerthan Torment"),
    (.str "Raiden Thrust"), (.str "Draconian Fury"), (.str "Heavens' Thrust"),
    (.str "Chaotic Spring"), (.str "Drakesbane"), (.str "Lance Barrage"), (.str "Spiral Blow")])

/-- class_skills/melee/drg.py:41-50 `__get_power_surge_follow_up` -/
def get_power_surge_follow_up (_env : Env) : Py PyVal := do
  let name : PyVal := (.str "Power Surge")
  return (← newFollowUp {
    skill := (← newSkill {
      name := name
      is_GCD := (.bool false)
      buff_spec := (← newStatusEffectSpec {
        damage_mult := (.float (110 / 100))
        duration := (← PyVal.toInt (← PyVal.mul (.float (316 / 10)) (.int 1000))) }) })
    delay_after_parent_application := (.int 0) })

/-- class_skills/melee/drg.py:52-62 `auto` -/
def auto (_env : Env) : Py PyVal := do
  let name : PyVal := (.str "Auto")
  return (← newSkill {
    name := name
    is_GCD := (.bool false)
    timing_spec := (← autoTimingSpec)
    damage_spec := (← newDamageSpec {
      potency := (.int 90)
      damage_class := (.damageClass .auto)
      trait_damage_mult_override := (.int 1) }) })

/-- class_skills/melee/drg.py:64-75 `true_thrust` -/
def true_thrust (env : Env) : Py PyVal := do
  let name : PyVal := (.str "True Thrust")
  return (← newSkill {
    name := name
    is_GCD := (.bool true)
    combo_spec := (.tuple [(← newComboSpec {})])
    damage_spec := (← newDamageSpec { potency := (← getPotency table env name) })
    timing_spec := (← newTimingSpec {
      base_cast_time := (.int 0)
      animation_lock := (.int 600)
      application_delay := (.int 760) }) })

/-- class_skills/melee/drg.py:77-97 `vorpal_thrust` -/
def vorpal_thrust (env : Env) : Py PyVal := do
  if decide (env.level ≥ 96) then
    return .none
  let name : PyVal := (.str "Vorpal Thrust")
  return (← newSkill {
    name := name
    is_GCD := (.bool true)
    combo_spec := (.tuple [
      (← newComboSpec {
        combo_actions := (.tuple [(.str "True Thrust"), (.str "Raiden Thrust")]) })])
    damage_spec := (mkDict [
      ((.str SimConsts.DEFAULT_CONDITION), (← newDamageSpec { potency := (← getPotency table env name) })),
      ((.str "No Combo"), (← newDamageSpec { potency := (← getPotencyNoCombo table env name) }))])
    timing_spec := (← newTimingSpec {
      base_cast_time := (.int 0)
      animation_lock := (.int 600)
      application_delay := (.int 1020) }) })

/-- class_skills/melee/drg.py:99-122 `piercing_talon` -/
def piercing_talon (env : Env) : Py PyVal := do
  let name : PyVal := (.str "Piercing Talon")
  return (← newSkill {
    name := name
    is_GCD := (.bool true)
    damage_spec := (← ifExp (env.ge .p71)
      (do return (mkDict [
          ((.str SimConsts.DEFAULT_CONDITION), (← newDamageSpec { potency := (← getPotency table env name) })),
          ((.str "Enhanced Piercing Talon"), (← newDamageSpec { potency := (← getSkillData table env name (.str "enhanced potency")) }))]))
      (do return (← newDamageSpec { potency := (← getPotency table env name) })))
    timing_spec := (← newTimingSpec {
      base_cast_time := (.int 0)
      animation_lock := (.int 600)
      application_delay := (.int 850) }) })

/-- class_skills/melee/drg.py:124-159 `disembowel` -/
def disembowel (env : Env) : Py PyVal := do
  if decide (env.level ≥ 96) then
    return .none
  let name : PyVal := (.str "Disembowel")
  let disembowel_damage_follow_up : PyVal := (← newFollowUp {
    skill := (← newSkill {
      name := name
      damage_spec := (← newDamageSpec { potency := (← getPotency table env name) }) })
    delay_after_parent_application := (.int 1650) })
  let disembowel_no_combo_damage_follow_up : PyVal := (← newFollowUp {
    skill := (← newSkill {
      name := name
      damage_spec := (← newDamageSpec { potency := (← getPotencyNoCombo table env name) }) })
    delay_after_parent_application := (.int 1650) })
  return (← newSkill {
    name := name
    is_GCD := (.bool true)
    combo_spec := (.tuple [
      (← newComboSpec {
        combo_actions := (.tuple [(.str "True Thrust"), (.str "Raiden Thrust")]) })])
    timing_spec := (← newTimingSpec {
      base_cast_time := (.int 0)
      animation_lock := (.int 600)
      application_delay := (.int 0) })
    follow_up_skills := (mkDict [
      ((.str SimConsts.DEFAULT_CONDITION), (.tuple [disembowel_damage_follow_up, (← get_power_surge_follow_up env)])),
      ((.str "No Combo"), (.tuple [disembowel_no_combo_damage_follow_up]))]) })

/-- class_skills/melee/drg.py:161-174 `lance_charge` -/
def lance_charge (env : Env) : Py PyVal := do
  let name : PyVal := (.str "Lance Charge")
  return (← newSkill {
    name := name
    is_GCD := (.bool false)
    timing_spec := (← newTimingSpec {
      base_cast_time := (.int 0)
      animation_lock := (.int 600)
      application_delay := (.int 660) })
    buff_spec := (← newStatusEffectSpec {
      damage_mult := (← getSkillData table env name (.str "damage_mult"))
      duration := (← getSkillData table env name (.str "duration")) }) })

/-- class_skills/melee/drg.py:176-188 `doom_spike` -/
def doom_spike (env : Env) : Py PyVal := do
  let name : PyVal := (.str "Doom Spike")
  return (← newSkill {
    name := name
    is_GCD := (.bool true)
    combo_spec := (.tuple [(← newComboSpec {})])
    damage_spec := (← newDamageSpec { potency := (← getPotency table env name) })
    timing_spec := (← newTimingSpec {
      base_cast_time := (.int 0)
      animation_lock := (.int 600)
      application_delay := (.int 1290) })
    has_aoe := (.bool true) })

/-- class_skills/melee/drg.py:190-202 `spineshatter_dive` -/
def spineshatter_dive (env : Env) : Py PyVal := do
  if env.ge .p70 then
    return .none
  let name : PyVal := (.str "Spineshatter Dive")
  return (← newSkill {
    name := name
    is_GCD := (.bool false)
    damage_spec := (← newDamageSpec { potency := (← getPotency table env name) })
    timing_spec := (← newTimingSpec {
      base_cast_time := (.int 0)
      animation_lock := (.int 800)
      application_delay := (.int 800) }) })

/-- class_skills/melee/drg.py:204-216 `dragonfire_dive` -/
def dragonfire_dive (env : Env) : Py PyVal := do
  let name : PyVal := (.str "Dragonfire Dive")
  return (← newSkill {
    name := name
    is_GCD := (.bool false)
    damage_spec := (← newDamageSpec { potency := (← getPotency table env name) })
    timing_spec := (← newTimingSpec {
      base_cast_time := (.int 0)
      animation_lock := (.int 800)
      application_delay := (.int 800) })
    has_aoe := (.bool true)
    aoe_dropoff := (.float (5 / 10)) })

/-- class_skills/melee/drg.py:218-232 `battle_litany` -/
def battle_litany (env : Env) : Py PyVal := do
  let name : PyVal := (.str "Battle Litany")
  return (← newSkill {
    name := name
    is_GCD := (.bool false)
    timing_spec := (← newTimingSpec {
      base_cast_time := (.int 0)
      animation_lock := (.int 650)
      application_delay := (.int 625) })
    buff_spec := (← newStatusEffectSpec {
      crit_rate_add := (← getSkillData table env name (.str "crit_rate_add"))
      duration := (← getSkillData table env name (.str "duration"))
      is_party_effect := (.bool true) }) })

/-- class_skills/melee/drg.py:234-296 `fang_and_claw` -/
def fang_and_claw (env : Env) : Py PyVal := do
  let name : PyVal := (.str "Fang and Claw")
  return (← newSkill {
    name := name
    is_GCD := (.bool true)
    combo_spec := (← ifExp (env.ge .p70)
      (do return (.tuple [(← newComboSpec { combo_actions := (.tuple [(.str "Heavens' Thrust")]) })]))
      (.ok (.tuple [])))
    damage_spec := (← ifExp (env.ge .p70)
      (do return (mkDict [
          ((.str SimConsts.DEFAULT_CONDITION), (← newDamageSpec { potency := (← getPotency table env name) })),
          ((.str "No Positional"), (← newDamageSpec { potency := (← getPotencyNoPositional table env name) })),
          ((.str "No Combo"), (← newDamageSpec { potency := (← getPotencyNoCombo table env name) })),
          ((.str "No Combo, No Positional"), (← newDamageSpec {
            potency := (← getSkillData table env name (.str "potency_no_pos_no_combo")) }))]))
      (do return (mkDict [
          ((.str SimConsts.DEFAULT_CONDITION), (← newDamageSpec { potency := (← getPotency table env name) })),
          ((.str "No Positional"), (← newDamageSpec { potency := (← getPotencyNoPositional table env name) })),
          ((.str "Wheeling Thrust"), (← newDamageSpec { potency := (← getSkillData table env name (.str "potency_wheeling")) })),
          ((.str "Wheeling Thrust, No Positional"), (← newDamageSpec {
            potency := (← getSkillData table env name (.str "potency_wheeling_no_pos")) }))])))
    timing_spec := (← newTimingSpec {
      base_cast_time := (.int 0)
      animation_lock := (.int 600)
      application_delay := (.int 620) })
    buff_spec := (mkDict [
      ((.str SimConsts.DEFAULT_CONDITION), (← newStatusEffectSpec {
        add_to_skill_modifier_condition := (.bool true)
        num_uses := (.int 1)
        duration := (← PyVal.mul (.int 30) (.int 1000))
        skill_allowlist := (← attr_drg_weapon_skills env) })),
      ((.str "Wheeling Thrust"), .none)]) })

/-- class_skills/melee/drg.py:298-357 `wheeling_thrust` -/
def wheeling_thrust (env : Env) : Py PyVal := do
  let name : PyVal := (.str "Wheeling Thrust")
  return (← newSkill {
    name := name
    is_GCD := (.bool true)
    combo_spec := (← ifExp (env.ge .p70)
      (do return (.tuple [(← newComboSpec { combo_actions := (.tuple [(.str "Chaotic Spring")]) })]))
      (.ok (.tuple [])))
    damage_spec := (← ifExp (env.ge .p70)
      (do return (mkDict [
          ((.str SimConsts.DEFAULT_CONDITION), (← newDamageSpec { potency := (← getPotency table env name) })),
          ((.str "No Positional"), (← newDamageSpec { potency := (← getPotencyNoPositional table env name) })),
          ((.str "No Combo"), (← newDamageSpec { potency := (← getPotencyNoCombo table env name) })),
          ((.str "No Combo, No Positional"), (← newDamageSpec {
            potency := (← getSkillData table env name (.str "potency_no_pos_no_combo")) }))]))
      (do return (mkDict [
          ((.str SimConsts.DEFAULT_CONDITION), (← newDamageSpec { potency := (← getPotency table env name) })),
          ((.str "No Positional"), (← newDamageSpec { potency := (← getPotencyNoPositional table env name) })),
          ((.str "Fang and Claw"), (← newDamageSpec { potency := (← getSkillData table env name (.str "potency_fc")) })),
          ((.str "Fang and Claw, No Positional"), (← newDamageSpec {
            potency := (← getSkillData table env name (.str "potency_fc_no_pos")) }))])))
    timing_spec := (← newTimingSpec {
      base_cast_time := (.int 0)
      animation_lock := (.int 600)
      application_delay := (.int 620) })
    buff_spec := (mkDict [
      ((.str SimConsts.DEFAULT_CONDITION), (← newStatusEffectSpec {
        add_to_skill_modifier_condition := (.bool true)
        num_uses := (.int 1)
        duration := (← PyVal.mul (.int 30) (.int 1000))
        skill_allowlist := (← attr_drg_weapon_skills env) })),
      ((.str "Fang and Claw"), .none)]) })

/-- class_skills/melee/drg.py:359-407 `geirskogul` -/
def geirskogul (env : Env) : Py PyVal := do
  let mut life_of_the_dragon_follow_up : PyVal := .unbound
  let mut geirskogul_damage_follow_up : PyVal := .unbound
  let name : PyVal := (.str "Geirskogul")
  if env.ge .p70 then
    life_of_the_dragon_follow_up := (← newFollowUp {
      skill := (← newSkill {
        name := (.str "Life of the Dragon")
        buff_spec := (← newStatusEffectSpec {
          damage_mult := (.float (115 / 100))
          duration := (← PyVal.mul (.int 20) (.int 1000)) }) })
      delay_after_parent_application := (.int 0) })
    geirskogul_damage_follow_up := (← newFollowUp {
      skill := (← newSkill {
        name := name
        damage_spec := (mkDict [
          ((.str SimConsts.DEFAULT_CONDITION), (← newDamageSpec { potency := (.int 280) }))])
        has_aoe := (.bool true)
        aoe_dropoff := (← getSkillData table env name (.str "aoe_dropoff")) })
      delay_after_parent_application := (.int 670)
      snapshot_buffs_with_parent := (.bool true)
      snapshot_debuffs_with_parent := (.bool true)
      primary_target_only := (.bool false) })
  return (← newSkill {
    name := name
    is_GCD := (.bool false)
    damage_spec := (← ifExp (env.ge .p70)
      (.ok .none)
      (do return (← newDamageSpec { potency := (← getPotency table env name) })))
    timing_spec := (← newTimingSpec {
      base_cast_time := (.int 0)
      animation_lock := (.int 600)
      application_delay := (.int 0) })
    has_aoe := (.bool true)
    aoe_dropoff := (← ifExp (env.ge .p70)
      (.ok .none)
      (do return (← getSkillData table env name (.str "aoe_dropoff"))))
    follow_up_skills := (← ifExp (env.ge .p70)
      (.ok (.tuple [geirskogul_damage_follow_up, life_of_the_dragon_follow_up]))
      (.ok (.tuple []))) })

/-- class_skills/melee/drg.py:409-447 `sonic_thrust` -/
def sonic_thrust (env : Env) : Py PyVal := do
  let name : PyVal := (.str "Sonic Thrust")
  let sonic_thrust_damage_follow_up : PyVal := (← newFollowUp {
    skill := (← newSkill {
      name := name
      damage_spec := (← newDamageSpec { potency := (← getPotency table env name) })
      has_aoe := (.bool true) })
    delay_after_parent_application := (.int 800)
    primary_target_only := (.bool false) })
  let sonic_thrust_no_combo_damage_follow_up : PyVal := (← newFollowUp {
    skill := (← newSkill {
      name := name
      damage_spec := (← newDamageSpec { potency := (← getPotencyNoCombo table env name) })
      has_aoe := (.bool true) })
    delay_after_parent_application := (.int 800)
    primary_target_only := (.bool false) })
  return (← newSkill {
    name := name
    is_GCD := (.bool true)
    combo_spec := (.tuple [(← newComboSpec { combo_actions := (.tuple [(.str "Doom Spike")]) })])
    timing_spec := (← newTimingSpec {
      base_cast_time := (.int 0)
      animation_lock := (.int 600)
      application_delay := (.int 0) })
    follow_up_skills := (mkDict [
      ((.str SimConsts.DEFAULT_CONDITION), (.tuple [sonic_thrust_damage_follow_up, (← get_power_surge_follow_up env)])),
      ((.str "No Combo"), (.tuple [sonic_thrust_no_combo_damage_follow_up]))])
    has_aoe := (.bool true) })

/-- class_skills/melee/drg.py:449-462 `drakesbane` -/
def drakesbane (env : Env) : Py PyVal := do
  if env.le .p655 then
    return .none
  let name : PyVal := (.str "Drakesbane")
  return (← newSkill {
    name := name
    is_GCD := (.bool true)
    combo_spec := (.tuple [
      (← newComboSpec {
        combo_actions := (.tuple [(.str "Wheeling Thrust"), (.str "Fang and Claw")]) })])
    damage_spec := (← newDamageSpec { potency := (← getPotency table env name) })
    timing_spec := (← newTimingSpec {
      base_cast_time := (.int 0)
      animation_lock := (.int 600)
      application_delay := (.int 620) }) })

/-- class_skills/melee/drg.py:464-486 `dragon_sight` -/
def dragon_sight (env : Env) : Py PyVal := do
  if env.ge .p70 then
    return .none
  let name : PyVal := (.str "Dragon Sight")
  return (← newSkill {
    name := name
    is_GCD := (.bool false)
    timing_spec := (mkDict [
      ((.str SimConsts.DEFAULT_CONDITION), (← newTimingSpec {
        base_cast_time := (.int 0)
        animation_lock := (.int 600)
        application_delay := (.int 660) })),
      ((.str "Left Eye"), (← newTimingSpec { base_cast_time := (.int 0), animation_lock := (.int 0) }))])
    buff_spec := (mkDict [
      ((.str SimConsts.DEFAULT_CONDITION), (← newStatusEffectSpec {
        damage_mult := (.float (11 / 10))
        duration := (← PyVal.mul (.int 20) (.int 1000)) })),
      ((.str "Left Eye"), (← newStatusEffectSpec {
        damage_mult := (.float (105 / 100))
        duration := (← PyVal.mul (.int 20) (.int 1000))
        is_party_effect := (.bool true) }))]) })

/-- class_skills/melee/drg.py:488-501 `left_eye` -/
def left_eye (env : Env) : Py PyVal := do
  if env.ge .p70 then
    return .none
  let name : PyVal := (.str "Left Eye")
  return (← newSkill {
    name := name
    is_GCD := (.bool false)
    timing_spec := (← newTimingSpec { base_cast_time := (.int 0), animation_lock := (.int 0) })
    buff_spec := (← newStatusEffectSpec {
      damage_mult := (.float (105 / 100))
      duration := (← PyVal.mul (.int 20) (.int 1000))
      is_party_effect := (.bool true) }) })

/-- class_skills/melee/drg.py:503-513 `mirage_dive` -/
def mirage_dive (env : Env) : Py PyVal := do
  let name : PyVal := (.str "Mirage Dive")
  return (← newSkill {
    name := name
    is_GCD := (.bool false)
    damage_spec := (← newDamageSpec { potency := (← getPotency table env name) })
    timing_spec := (← newTimingSpec {
      base_cast_time := (.int 0)
      animation_lock := (.int 600)
      application_delay := (.int 800) }) })

/-- class_skills/melee/drg.py:515-527 `nastrond` -/
def nastrond (env : Env) : Py PyVal := do
  let name : PyVal := (.str "Nastrond")
  return (← newSkill {
    name := name
    is_GCD := (.bool false)
    damage_spec := (← newDamageSpec { potency := (← getPotency table env name) })
    timing_spec := (← newTimingSpec {
      base_cast_time := (.int 0)
      animation_lock := (.int 600)
      application_delay := (.int 760) })
    has_aoe := (.bool true)
    aoe_dropoff := (.float (5 / 10)) })

/-- class_skills/melee/drg.py:529-548 `coerthan_torment` -/
def coerthan_torment (env : Env) : Py PyVal := do
  let name : PyVal := (.str "Coerthan Torment")
  return (← newSkill {
    name := name
    is_GCD := (.bool true)
    combo_spec := (.tuple [(← newComboSpec { combo_actions := (.tuple [(.str "Sonic Thrust")]) })])
    damage_spec := (mkDict [
      ((.str SimConsts.DEFAULT_CONDITION), (← newDamageSpec { potency := (← getPotency table env name) })),
      ((.str "No Combo"), (← newDamageSpec { potency := (← getPotencyNoCombo table env name) }))])
    timing_spec := (← newTimingSpec {
      base_cast_time := (.int 0)
      animation_lock := (.int 600)
      application_delay := (.int 490) })
    has_aoe := (.bool true) })

/-- class_skills/melee/drg.py:550-560 `high_jump` -/
def high_jump (env : Env) : Py PyVal := do
  let name : PyVal := (.str "High Jump")
  return (← newSkill {
    name := name
    is_GCD := (.bool false)
    damage_spec := (← newDamageSpec { potency := (← getPotency table env name) })
    timing_spec := (← newTimingSpec {
      base_cast_time := (.int 0)
      animation_lock := (.int 800)
      application_delay := (.int 490) }) })

/-- class_skills/melee/drg.py:562-573 `raiden_thrust` -/
def raiden_thrust (env : Env) : Py PyVal := do
  let name : PyVal := (.str "Raiden Thrust")
  return (← newSkill {
    name := name
    is_GCD := (.bool true)
    combo_spec := (.tuple [(← newComboSpec {})])
    damage_spec := (← newDamageSpec { potency := (← getPotency table env name) })
    timing_spec := (← newTimingSpec {
      base_cast_time := (.int 0)
      animation_lock := (.int 600)
      application_delay := (.int 620) }) })

/-- class_skills/melee/drg.py:575-587 `stardiver` -/
def stardiver (env : Env) : Py PyVal := do
  let name : PyVal := (.str "Stardiver")
  return (← newSkill {
    name := name
    is_GCD := (.bool false)
    damage_spec := (← newDamageSpec { potency := (← getPotency table env name) })
    timing_spec := (← newTimingSpec {
      base_cast_time := (.int 0)
      animation_lock := (.int 1500)
      application_delay := (.int 1290) })
    has_aoe := (.bool true)
    aoe_dropoff := (.float (5 / 10)) })

/-- class_skills/melee/drg.py:589-600 `draconian_fury` -/
def draconian_fury (env : Env) : Py PyVal := do
  let name : PyVal := (.str "Draconian Fury")
  return (← newSkill {
    name := name
    is_GCD := (.bool true)
    damage_spec := (← newDamageSpec { potency := (← getPotency table env name) })
    timing_spec := (← newTimingSpec {
      base_cast_time := (.int 0)
      animation_lock := (.int 600)
      application_delay := (.int 760) })
    has_aoe := (.bool true) })

/-- class_skills/melee/drg.py:602-624 `heavens_thrust` -/
def heavens_thrust (env : Env) : Py PyVal := do
  let name : PyVal := (.str "Heavens' Thrust")
  return (← newSkill {
    name := name
    is_GCD := (.bool true)
    combo_spec := (.tuple [
      (← newComboSpec {
        combo_actions := (← getSkillData table env name (.str "combo_action")) })])
    damage_spec := (mkDict [
      ((.str SimConsts.DEFAULT_CONDITION), (← newDamageSpec { potency := (← getPotency table env name) })),
      ((.str "No Combo"), (← newDamageSpec { potency := (← getPotencyNoCombo table env name) }))])
    timing_spec := (← newTimingSpec {
      base_cast_time := (.int 0)
      animation_lock := (.int 600)
      application_delay := (.int 710) }) })

/-- class_skills/melee/drg.py:626-678 `chaotic_spring` -/
def chaotic_spring (env : Env) : Py PyVal := do
  let mut name : PyVal := .unbound
  name := (.str "Chaotic Spring (dot)")
  let chaotic_spring_follow_up : PyVal := (← newFollowUp {
    skill := (← newSkill {
      name := name
      is_GCD := (.bool false)
      damage_spec := (← newDamageSpec {
        potency := (← getPotency table env name)
        damage_class := (.damageClass .physicalDot) }) })
    delay_after_parent_application := (.int 0)
    dot_duration := (← PyVal.mul (.int 24) (.int 1000))
    snapshot_buffs_with_parent := (.bool true)
    snapshot_debuffs_with_parent := (.bool true) })
  name := (.str "Chaotic Spring")
  return (← newSkill {
    name := name
    is_GCD := (.bool true)
    combo_spec := (.tuple [
      (← newComboSpec {
        combo_actions := (← getSkillData table env name (.str "combo_action")) })])
    damage_spec := (mkDict [
      ((.str SimConsts.DEFAULT_CONDITION), (← newDamageSpec { potency := (← getPotency table env name) })),
      ((.str "No Combo"), (← newDamageSpec { potency := (← getPotencyNoCombo table env name) })),
      ((.str "No Positional"), (← newDamageSpec { potency := (← getPotencyNoPositional table env name) })),
      ((.str "No Combo, No Positional"), (← newDamageSpec {
        potency := (← getSkillData table env name (.str "potency_no_pos_no_combo")) }))])
    timing_spec := (← newTimingSpec {
      base_cast_time := (.int 0)
      animation_lock := (.int 600)
      application_delay := (.int 450) })
    follow_up_skills := (mkDict [
      ((.str SimConsts.DEFAULT_CONDITION), (.tuple [chaotic_spring_follow_up])),
      ((.str "No Combo"), (.tuple [])),
      ((.str "No Positional"), (.tuple [chaotic_spring_follow_up])),
      ((.str "No Combo, No Positional"), (.tuple []))]) })

/-- class_skills/melee/drg.py:680-692 `wyrmwind_thrust` -/
def wyrmwind_thrust (env : Env) : Py PyVal := do
  let name : PyVal := (.str "Wyrmwind Thrust")
  return (← newSkill {
    name := name
    is_GCD := (.bool false)
    damage_spec := (← newDamageSpec { potency := (← getPotency table env name) })
    timing_spec := (← newTimingSpec {
      base_cast_time := (.int 0)
      animation_lock := (.int 600)
      application_delay := (.int 1200) })
    has_aoe := (.bool true)
    aoe_dropoff := (.float (5 / 10)) })

/-- class_skills/melee/drg.py:694-708 `rise_of_the_dragon` -/
def rise_of_the_dragon (env : Env) : Py PyVal := do
  if decide (env.level < 92) then
    return .none
  let name : PyVal := (.str "Rise of the Dragon")
  return (← newSkill {
    name := name
    is_GCD := (.bool false)
    damage_spec := (← newDamageSpec { potency := (← getPotency table env name) })
    timing_spec := (← newTimingSpec {
      base_cast_time := (.int 0)
      animation_lock := (.int 600)
      application_delay := (.int 1160) })
    has_aoe := (.bool true)
    aoe_dropoff := (.float (5 / 10)) })

/-- class_skills/melee/drg.py:710-730 `lance_barrage` -/
def lance_barrage (env : Env) : Py PyVal := do
  if decide (env.level < 96) then
    return .none
  let name : PyVal := (.str "Lance Barrage")
  return (← newSkill {
    name := name
    is_GCD := (.bool true)
    combo_spec := (.tuple [
      (← newComboSpec {
        combo_actions := (.tuple [(.str "True Thrust"), (.str "Raiden Thrust")]) })])
    damage_spec := (mkDict [
      ((.str SimConsts.DEFAULT_CONDITION), (← newDamageSpec { potency := (← getPotency table env name) })),
      ((.str "No Combo"), (← newDamageSpec { potency := (← getPotencyNoCombo table env name) }))])
    timing_spec := (← newTimingSpec {
      base_cast_time := (.int 0)
      animation_lock := (.int 600)
      application_delay := (.int 940) }) })

/-- class_skills/melee/drg.py:732-759 `spiral_blow` -/
def spiral_blow (env : Env) : Py PyVal := do
  if decide (env.level < 96) then
    return .none
  let name : PyVal := (.str "Spiral Blow")
  let spiral_blow_damage_follow_up : PyVal := (← newFollowUp {
    skill := (← newSkill { name := name, damage_spec := (← newDamageSpec { potency := (.int 300) }) })
    delay_after_parent_application := (.int 1380) })
  let spiral_blow_no_combo_damage_follow_up : PyVal := (← newFollowUp {
    skill := (← newSkill { name := name, damage_spec := (← newDamageSpec { potency := (.int 140) }) })
    delay_after_parent_application := (.int 1380) })
  return (← newSkill {
    name := name
    is_GCD := (.bool true)
    combo_spec := (.tuple [
      (← newComboSpec {
        combo_actions := (.tuple [(.str "True Thrust"), (.str "Raiden Thrust")]) })])
    timing_spec := (← newTimingSpec {
      base_cast_time := (.int 0)
      animation_lock := (.int 600)
      application_delay := (.int 0) })
    follow_up_skills := (mkDict [
      ((.str SimConsts.DEFAULT_CONDITION), (.tuple [spiral_blow_damage_follow_up, (← get_power_surge_follow_up env)])),
      ((.str "No Combo"), (.tuple [spiral_blow_no_combo_damage_follow_up]))]) })

/-- class_skills/melee/drg.py:761-775 `starcross` -/
def starcross (env : Env) : Py PyVal := do
  if decide (env.level < 100) then
    return .none
  let name : PyVal := (.str "Starcross")
  return (← newSkill {
    name := name
    is_GCD := (.bool false)
    damage_spec := (← newDamageSpec { potency := (.int 700) })
    timing_spec := (← newTimingSpec {
      base_cast_time := (.int 0)
      animation_lock := (.int 600)
      application_delay := (.int 980) })
    has_aoe := (.bool true)
    aoe_dropoff := (.float (5 / 10)) })

/-- class_skills/melee/drg.py:777-790 `life_surge` -/
def life_surge (env : Env) : Py PyVal := do
  let name : PyVal := (.str "Life Surge")
  return (← newSkill {
    name := name
    is_GCD := (.bool false)
    timing_spec := (← newTimingSpec { base_cast_time := (.int 0), animation_lock := (.int 600) })
    buff_spec := (← newStatusEffectSpec {
      guaranteed_crit := (.forced .forceYes)
      duration := (← PyVal.mul (.int 5) (.int 1000))
      num_uses := (.int 1)
      skill_allowlist := (← attr_drg_weapon_skills env) }) })

/-- class_skills/melee/drg.py:796-799 `true_north` -/
def true_north (_env : Env) : Py PyVal := do
  let name : PyVal := (.str "True North")
  return (← newSkill {
    name := name
    is_GCD := (.bool false)
    timing_spec := (← instantTimingSpec) })

/-- class_skills/melee/drg.py:801-804 `winged_glide` -/
def winged_glide (_env : Env) : Py PyVal := do
  let name : PyVal := (.str "Winged Glide")
  return (← newSkill {
    name := name
    is_GCD := (.bool false)
    timing_spec := (← instantTimingSpec) })

/-- class_skills/melee/drg.py:806-832 `elusive_jump` -/
def elusive_jump (env : Env) : Py PyVal := do
  let drg_follow_ups : PyVal := (← ifExp (env.ge .p71)
    (do return (.tuple [
        (← newFollowUp {
          skill := (← newSkill {
            name := (.str "Enhanced Piercing Talon")
            buff_spec := (← newStatusEffectSpec {
              duration := (← PyVal.mul (.int 15) (.int 1000))
              num_uses := (.int 1)
              skill_allowlist := (.tuple [(.str "Piercing Talon")])
              add_to_skill_modifier_condition := (.bool true) }) })
          delay_after_parent_application := (.int 0) })]))
    (.ok (.tuple [])))
  return (← newSkill {
    name := (.str "Elusive Jump")
    is_GCD := (.bool false)
    timing_spec := (← newTimingSpec { base_cast_time := (.int 0), animation_lock := (.int 800) })
    follow_up_skills := drg_follow_ups })

/-- class_skills/melee/drg.py:17-832 `DrgSkills`; the methods in the order of `dir`. -/
def job (env : Env) : JobClass where
  jobClass := "DRG"
  init := do
    let _ ← attr_drg_weapon_skills env
  skillMethods := [
    auto env,
    battle_litany env,
    chaotic_spring env,
    coerthan_torment env,
    disembowel env,
    doom_spike env,
    draconian_fury env,
    dragon_sight env,
    dragonfire_dive env,
    drakesbane env,
    elusive_jump env,
    fang_and_claw env,
    geirskogul env,
    heavens_thrust env,
    high_jump env,
    lance_barrage env,
    lance_charge env,
    left_eye env,
    life_surge env,
    mirage_dive env,
    nastrond env,
    piercing_talon env,
    raiden_thrust env,
    rise_of_the_dragon env,
    sonic_thrust env,
    spineshatter_dive env,
    spiral_blow env,
    starcross env,
    stardiver env,
    true_north env,
    true_thrust env,
    vorpal_thrust env,
    wheeling_thrust env,
    winged_glide env,
    wyrmwind_thrust env]

end Ama.GameData.Drg
