import Verif.Model.GameData.Values

/-!
# NIN

Model of `simulator/game_data/class_skills/melee/nin.py` and `simulator/game_data/class_skills/melee/nin_data.py`, written by
`tools/translate.py`: one function per method.  Paths in the comments are relative to
`simulator/game_data`.
-/

namespace Ama.GameData.Nin

open PyVal

/-- class_skills/melee/nin_data.py:9-177 `ALL_DATA` -/
def table : Table := [
  ("Bunshin", [
    (90, [
      ("potency_melee", [(.p655, .ok (.int 160))]),
      ("potency_ranged", [(.p655, .ok (.int 160))]),
      ("potency_area", [(.p655, .ok (.int 80))]),
      ("allowlist", [
        (.p655, .ok (.tuple [
          (.str "Spinning Edge"), (.str "Gust Slash"), (.str "Throwing Dagger"),
          (.str "Aeolian Edge"), (.str "Death Blossom"), (.str "Hakke Mujinsatsu"),
          (.str "Armor Crush"), (.str "Huraijin"), (.str "Forked Raiju"), (.str "Fleeting Raiju")])),
        (.p70, .ok (.tuple [
          (.str "Spinning Edge"), (.str "Gust Slash"), (.str "Throwing Dagger"),
          (.str "Aeolian Edge"), (.str "Death Blossom"), (.str "Hakke Mujinsatsu"),
          (.str "Armor Crush"), (.str "Forked Raiju"), (.str "Fleeting Raiju")]))])]),
    (100, [
      ("potency_melee", [(.p70, .ok (.int 160))]),
      ("potency_ranged", [(.p70, .ok (.int 160))]),
      ("potency_area", [(.p70, .ok (.int 80))]),
      ("allowlist", [
        (.p70, .ok (.tuple [
          (.str "Spinning Edge"), (.str "Gust Slash"), (.str "Throwing Dagger"),
          (.str "Aeolian Edge"), (.str "Death Blossom"), (.str "Hakke Mujinsatsu"),
          (.str "Armor Crush"), (.str "Forked Raiju"), (.str "Fleeting Raiju")]))])])]),
  ("Dream Within a Dream", [
    (90, [("potency", [(.p655, .ok (.int 150)), (.p71, .ok (.int 180))])]),
    (100, [("potency", [(.p70, .ok (.int 150)), (.p71, .ok (.int 180))])])]),
  ("Doton (dot)", [
    (90, [("potency", [(.p655, .ok (.int 80))])]),
    (100, [("potency", [(.p70, .ok (.int 80))])])]),
  ("Doton hollow nozuchi (dot)", [
    (90, [("potency", [(.p655, .ok (.int 50))])]),
    (100, [("potency", [(.p70, .ok (.int 50))])])]),
  ("Spinning Edge", [
    (90, [("potency", [(.p655, .ok (.int 220))])]),
    (100, [("potency", [(.p655, .ok (.int 300))])])]),
  ("Gust Slash", [
    (90, [
      ("potency", [(.p655, .ok (.int 320))]),
      ("potency_no_combo", [(.p655, .ok (.int 160))])]),
    (100, [
      ("potency", [(.p70, .ok (.int 380)), (.p705, .ok (.int 400))]),
      ("potency_no_combo", [(.p70, .ok (.int 220)), (.p705, .ok (.int 240))])])]),
  ("Throwing Dagger", [
    (90, [("potency", [(.p655, .ok (.int 120)), (.p71, .ok (.int 200))])]),
    (100, [("potency", [(.p70, .ok (.int 120)), (.p71, .ok (.int 200))])])]),
  ("Mug", [
    (90, [
      ("potency", [(.p655, .ok (.int 150))]),
      ("duration", [
        (.p655, do return (← PyVal.toInt (← PyVal.mul (.float (205 / 10)) (.int 1000))))])])]),
  ("Trick Attack", [
    (90, [
      ("potency", [(.p655, .ok (.int 400))]),
      ("potency_no_pos", [(.p655, .ok (.int 300))]),
      ("duration", [
        (.p655, do return (← PyVal.toInt (← PyVal.mul (.float (1577 / 100)) (.int 1000))))])])]),
  ("Aeolian Edge", [
    (90, [
      ("potency", [(.p655, .ok (.int 440)), (.p70, .ok (.int 380))]),
      ("potency_no_combo", [(.p655, .ok (.int 200))]),
      ("potency_no_pos", [(.p655, .ok (.int 380)), (.p70, .ok (.int 320))]),
      ("potency_no_pos_no_combo", [(.p655, .ok (.int 140))]),
      ("potency_increment_kaz", [(.p70, .ok (.int 100))])]),
    (100, [
      ("potency", [(.p70, .ok (.int 440))]),
      ("potency_no_combo", [(.p70, .ok (.int 260))]),
      ("potency_no_pos", [(.p70, .ok (.int 380))]),
      ("potency_no_pos_no_combo", [(.p70, .ok (.int 200))]),
      ("potency_increment_kaz", [(.p70, .ok (.int 100))])])]),
  ("Death Blossom", [
    (90, [("potency", [(.p655, .ok (.int 100))])]),
    (100, [("potency", [(.p70, .ok (.int 100))])])]),
  ("Hakke Mujinsatsu", [
    (90, [
      ("potency", [(.p655, .ok (.int 130))]),
      ("potency_no_combo", [(.p655, .ok (.int 100))])]),
    (100, [
      ("potency", [(.p70, .ok (.int 130))]),
      ("potency_no_combo", [(.p70, .ok (.int 100))])])]),
  ("Armor Crush", [
    (90, [
      ("potency", [(.p655, .ok (.int 420)), (.p705, .ok (.int 400))]),
      ("potency_no_combo", [(.p655, .ok (.int 200))]),
      ("potency_no_pos", [(.p655, .ok (.int 360)), (.p70, .ok (.int 340))]),
      ("potency_no_pos_no_combo", [(.p655, .ok (.int 140))]),
      ("job_resource", [
        (.p655, .ok (.tuple [])),
        (.p70, do return (.tuple [(← newJobResourceSpec { name := (.str "Kazematoi"), change := (.int 2) })]))])]),
    (100, [
      ("potency", [(.p70, .ok (.int 480))]),
      ("potency_no_combo", [(.p70, .ok (.int 280))]),
      ("potency_no_pos", [(.p70, .ok (.int 420))]),
      ("potency_no_pos_no_combo", [(.p70, .ok (.int 220))]),
      ("job_resource", [
        (.p70, do return (.tuple [(← newJobResourceSpec { name := (.str "Kazematoi"), change := (.int 2) })]))])])]),
  ("Dokumori", [
    (90, [
      ("potency", [(.p70, .ok (.int 300))]),
      ("duration", [
        (.p70, do return (← PyVal.toInt (← PyVal.mul (.float (2102 / 100)) (.int 1000))))])]),
    (100, [
      ("potency", [(.p70, .ok (.int 300))]),
      ("duration", [
        (.p70, do return (← PyVal.toInt (← PyVal.mul (.float (2102 / 100)) (.int 1000))))])])]),
  ("Huraijin", [(90, [("potency", [(.p655, .ok (.int 200))])])]),
  ("Hellfrog Medium", [
    (90, [("potency", [(.p655, .ok (.int 160))])]),
    (100, [("potency", [(.p70, .ok (.int 160))])])]),
  ("Bhavacakra", [
    (90, [
      ("potency", [(.p655, .ok (.int 350))]),
      ("potency_mesui", [(.p655, .ok (.int 500))])]),
    (100, [
      ("potency", [(.p70, .ok (.int 380))]),
      ("potency_mesui", [(.p70, .ok (.int 530))])])]),
  ("Phantom Kamaitachi (pet)", [
    (90, [("potency", [(.p655, .ok (.int 600))])]),
    (100, [("potency", [(.p70, .ok (.int 600))])])]),
  ("Forked Raiju", [
    (90, [("potency", [(.p655, .ok (.int 560))])]),
    (100, [("potency", [(.p70, .ok (.int 640)), (.p705, .ok (.int 700))])])]),
  ("Fleeting Raiju", [
    (90, [("potency", [(.p655, .ok (.int 560))])]),
    (100, [("potency", [(.p70, .ok (.int 640)), (.p705, .ok (.int 700))])])]),
  ("Fuma Shuriken", [
    (90, [("potency", [(.p655, .ok (.int 450))])]),
    (100, [("potency", [(.p70, .ok (.int 500))])])]),
  ("Katon", [
    (90, [("potency", [(.p655, .ok (.int 350))])]),
    (100, [("potency", [(.p70, .ok (.int 350))])])]),
  ("Raiton", [
    (90, [("potency", [(.p655, .ok (.int 650))])]),
    (100, [("potency", [(.p70, .ok (.int 740))])])]),
  ("Hyoton", [
    (90, [("potency", [(.p655, .ok (.int 350))])]),
    (100, [("potency", [(.p70, .ok (.int 350))])])]),
  ("Huton", [
    (90, [
      ("damage_spec", [
        (.p655, .ok .none),
        (.p70, do return (← newDamageSpec { potency := (.int 240) }))])]),
    (100, [("damage_spec", [(.p70, do return (← newDamageSpec { potency := (.int 240) }))])])]),
  ("Suiton", [
    (90, [("potency", [(.p655, .ok (.int 500))])]),
    (100, [("potency", [(.p70, .ok (.int 580))])])]),
  ("Goka Mekkyaku", [
    (90, [("potency", [(.p655, .ok (.int 600))])]),
    (100, [("potency", [(.p70, .ok (.int 600))])])]),
  ("Hyosho Ranryu", [
    (90, [("potency", [(.p655, .ok (.int 1300))])]),
    (100, [("potency", [(.p70, .ok (.int 1300))])])]),
  ("Meisui", [
    (90, [("allowlist", [(.p655, .ok (.tuple [(.str "Bhavacakra")]))])]),
    (100, [("allowlist", [(.p70, .ok (.tuple [(.str "Bhavacakra"), (.str "Zesho Meppo")]))])])]),
  ("Kunai's Bane", [
    (100, [
      ("potency", [(.p70, .ok (.int 600))]),
      ("duration", [
        (.p70, do return (← PyVal.toInt (← PyVal.mul (.float (1626 / 100)) (.int 1000))))])])]),
  ("Deathfrog Medium", [(100, [("potency", [(.p70, .ok (.int 300))])])]),
  ("Zesho Meppo", [
    (100, [
      ("potency", [(.p70, .ok (.int 550)), (.p705, .ok (.int 700))]),
      ("potency_mesui", [(.p70, .ok (.int 700)), (.p705, .ok (.int 850))])])]),
  ("Tenri Jindo", [
    (100, [("potency", [(.p70, .ok (.int 1000)), (.p705, .ok (.int 1100))])])])]

/-- class_skills/melee/nin.py:45-88 `__get_all_bunshin_follow_ups` -/
def get_all_bunshin_follow_ups (env : Env) : Py PyVal := do
  let mut all_bunshin_follow_ups : PyVal := .unbound
  let BUNSHIN_MELEE_POTENCY : PyVal := (← getSkillData table env (.str "Bunshin") (.str "potency_melee"))
  let BUNSHIN_RANGED_POTENCY : PyVal := (← getSkillData table env (.str "Bunshin") (.str "potency_ranged"))
  let BUNSHIN_AREA_POTENCY : PyVal := (← getSkillData table env (.str "Bunshin") (.str "potency_area"))
  let bunshin_follow_ups : PyVal := (.list [
    (.tuple [(.str "Spinning Edge"), BUNSHIN_MELEE_POTENCY, (.bool true)]),
    (.tuple [(.str "Gust Slash"), BUNSHIN_MELEE_POTENCY, (.bool true)]),
    (.tuple [(.str "Aeolian Edge"), BUNSHIN_MELEE_POTENCY, (.bool true)]),
    (.tuple [(.str "Armor Crush"), BUNSHIN_MELEE_POTENCY, (.bool true)]),
    (.tuple [(.str "Forked Raiju"), BUNSHIN_MELEE_POTENCY, (.bool true)]),
    (.tuple [(.str "Fleeting Raiju"), BUNSHIN_MELEE_POTENCY, (.bool true)]),
    (.tuple [(.str "Huraijin"), BUNSHIN_MELEE_POTENCY, (.bool true)]),
    (.tuple [(.str "Throwing Dagger"), BUNSHIN_RANGED_POTENCY, (.bool true)]),
    (.tuple [(.str "Hakke Mujinsatsu"), BUNSHIN_AREA_POTENCY, (.bool false)]),
    (.tuple [(.str "Death Blossom"), BUNSHIN_AREA_POTENCY, (.bool false)])])
  all_bunshin_follow_ups := (mkDict [])
  for item in (← PyVal.iter bunshin_follow_ups) do
    let sk : PyVal := (← PyVal.getItem item (.int 0))
    let bunshin_potency : PyVal := (← PyVal.getItem item (.int 1))
    let primary_target_only : PyVal := (← PyVal.getItem item (.int 2))
    all_bunshin_follow_ups := (← PyVal.setItem all_bunshin_follow_ups sk (← newFollowUp {
      skill := (← newSkill {
        name := (← PyVal.fstring [sk, (.str " (pet)")])
        is_GCD := (.bool false)
        damage_spec := (← newDamageSpec {
          potency := bunshin_potency
          damage_class := (.damageClass .pet)
          pet_job_mod_override := (.int 100) })
        status_effect_denylist := (.tuple [(.str "Dragon Sight")]) })
      delay_after_parent_application := (.int 88)
      snapshot_buffs_with_parent := (.bool false)
      snapshot_debuffs_with_parent := (.bool false)
      primary_target_only := primary_target_only }))
  return all_bunshin_follow_ups

/-- class_skills/melee/nin.py:24-24 `__all_bunshin_follow_ups`, set by the constructor -/
def attr_all_bunshin_follow_ups (env : Env) : Py PyVal := do
  return (← get_all_bunshin_follow_ups env)

/-- class_skills/melee/nin.py:25-33 `__ninjutsus`, set by the constructor -/
def attr_ninjutsus (_env : Env) : Py PyVal := do
  return (.tuple [
    (.str "Fuma Shuriken"), (.str "Katon"), (.str "Raiton"), (.str "Hyoton"), (.str "Huton"),
    (.str "Doton"), (.str "Suiton")])

/-- class_skills/melee/nin.py:36-43 `__get_mudra_timing_spec` -/
def get_mudra_timing_spec (_env : Env) : Py PyVal := do
  return (← newTimingSpec {
    base_cast_time := (.int 0)
    gcd_base_recast_time := (.int 500)
    affected_by_speed_stat := (.bool false)
    affected_by_haste_buffs := (.bool false)
    animation_lock := (.int 0) })

/-- class_skills/melee/nin.py:34-34 `__mudra_timing_spec`, set by the constructor -/
def attr_mudra_timing_spec (env : Env) : Py PyVal := do
  return (← get_mudra_timing_spec env)

/-- class_skills/melee/nin.py:90-100 `kazematoi` -/
def kazematoi (env : Env) : Py PyVal := do
  if env.lt .p70 then
    return .none
  let name : PyVal := (.str "Kazematoi")
  let job_resource_settings : PyVal := (← newJobResourceSettings {
    max_value := (.int 5)
    skill_allowlist := (.tuple [(.str "Aeolian Edge"), (.str "Armor Crush")])
    add_number_to_conditional := (.bool false) })
  return (.tuple [name, job_resource_settings])

/-- class_skills/melee/nin.py:102-118 `__get_huton_follow_up_huton` -/
def get_huton_follow_up_huton (env : Env) : Py PyVal := do
  if env.ge .p70 then
    return .none
  let name : PyVal := (.str "Huton (Huton)")
  return (← newFollowUp {
    skill := (← newSkill {
      name := name
      is_GCD := (.bool false)
      buff_spec := (← newStatusEffectSpec {
        haste_time_reduction := (.float (15 / 100))
        auto_attack_delay_reduction := (.float (15 / 100))
        duration := (← PyVal.mul (.int 60) (.int 1000))
        max_duration := (← PyVal.mul (.int 60) (.int 1000)) }) })
    delay_after_parent_application := (.int 0) })

/-- class_skills/melee/nin.py:120-136 `__get_huton_follow_up_hakke` -/
def get_huton_follow_up_hakke (env : Env) : Py PyVal := do
  if env.ge .p70 then
    return .none
  let name : PyVal := (.str "Huton (Hakke)")
  return (← newFollowUp {
    skill := (← newSkill {
      name := name
      is_GCD := (.bool false)
      buff_spec := (← newStatusEffectSpec {
        haste_time_reduction := (.float (15 / 100))
        auto_attack_delay_reduction := (.float (15 / 100))
        duration := (← PyVal.mul (.int 10) (.int 1000))
        max_duration := (← PyVal.mul (.int 60) (.int 1000)) }) })
    delay_after_parent_application := (.int 0) })

/-- class_skills/melee/nin.py:138-152 `__get_huton_follow_up_armor_crush` -/
def get_huton_follow_up_armor_crush (_env : Env) : Py PyVal := do
  let name : PyVal := (.str "Huton (Armor Crush)")
  return (← newFollowUp {
    skill := (← newSkill {
      name := name
      is_GCD := (.bool false)
      buff_spec := (← newStatusEffectSpec {
        haste_time_reduction := (.float (15 / 100))
        auto_attack_delay_reduction := (.float (15 / 100))
        duration := (← PyVal.mul (.int 30) (.int 1000))
        max_duration := (← PyVal.mul (.int 60) (.int 1000)) }) })
    delay_after_parent_application := (.int 0) })

/-- class_skills/melee/nin.py:154-194 `dream_within_a_dream` -/
def dream_within_a_dream (env : Env) : Py PyVal := do
  let name : PyVal := (.str "Dream Within a Dream")
  let dream_follow_ups : PyVal := (.tuple [
    (← newFollowUp {
      skill := (← newSkill {
        name := name
        is_GCD := (.bool false)
        damage_spec := (← newDamageSpec { potency := (← getPotency table env name) }) })
      snapshot_buffs_with_parent := (.bool true)
      snapshot_debuffs_with_parent := (.bool false)
      delay_after_parent_application := (.int 700) }),
    (← newFollowUp {
      skill := (← newSkill {
        name := name
        is_GCD := (.bool false)
        damage_spec := (← newDamageSpec { potency := (← getPotency table env name) }) })
      snapshot_buffs_with_parent := (.bool true)
      snapshot_debuffs_with_parent := (.bool false)
      delay_after_parent_application := (.int 850) }),
    (← newFollowUp {
      skill := (← newSkill {
        name := name
        is_GCD := (.bool false)
        damage_spec := (← newDamageSpec { potency := (← getPotency table env name) }) })
      snapshot_buffs_with_parent := (.bool true)
      snapshot_debuffs_with_parent := (.bool false)
      delay_after_parent_application := (.int 1000) })])
  return (← newSkill {
    name := name
    is_GCD := (.bool false)
    timing_spec := (← instantTimingSpec)
    follow_up_skills := dream_follow_ups })

/-- class_skills/melee/nin.py:196-206 `auto` -/
def auto (_env : Env) : Py PyVal := do
  let name : PyVal := (.str "Auto")
  return (← newSkill {
    name := name
    is_GCD := (.bool false)
    timing_spec := (← autoTimingSpec)
    damage_spec := (← newDamageSpec {
      potency := (.int 90)
      damage_class := (.damageClass .auto)
      trait_damage_mult_override := (.int 1) }) })

/-- class_skills/melee/nin.py:208-245 `doton` -/
def doton (_env : Env) : Py PyVal := do
  let mut name : PyVal := .unbound
  name := (.str "Doton (dot)")
  let doton_follow_up : PyVal := (← newFollowUp {
    skill := (← newSkill {
      name := name
      is_GCD := (.bool false)
      damage_spec := (← newDamageSpec { potency := (.int 80), damage_class := (.damageClass .physicalDot) }) })
    delay_after_parent_application := (.int 0)
    dot_duration := (← PyVal.mul (.int 18) (.int 1000))
    snapshot_buffs_with_parent := (.bool true)
    snapshot_debuffs_with_parent := (.bool false) })
  name := (.str "Doton")
  return (← newSkill {
    name := name
    is_GCD := (.bool true)
    timing_spec := (mkDict [
      ((.str SimConsts.DEFAULT_CONDITION), (← newTimingSpec {
        base_cast_time := (.int 0)
        gcd_base_recast_time := (.int 1500)
        application_delay := (.int 1300)
        affected_by_speed_stat := (.bool false)
        affected_by_haste_buffs := (.bool false) })),
      ((.str "Ten Chi Jin"), (← newTimingSpec {
        base_cast_time := (.int 0)
        gcd_base_recast_time := (.int 1000)
        application_delay := (.int 1300)
        affected_by_speed_stat := (.bool false)
        affected_by_haste_buffs := (.bool false) }))])
    follow_up_skills := (.tuple [doton_follow_up]) })

/-- class_skills/melee/nin.py:247-272 `hollow_nozuchi` -/
def hollow_nozuchi (_env : Env) : Py PyVal := do
  let doton_hollow_nozuchi_follow_up : PyVal := (← newFollowUp {
    skill := (← newSkill {
      name := (.str "Doton hollow nozuchi (dot)")
      is_GCD := (.bool false)
      damage_spec := (← newDamageSpec { potency := (.int 50), damage_class := (.damageClass .physicalDot) }) })
    delay_after_parent_application := (.int 0)
    dot_duration := (← PyVal.mul (.int 18) (.int 1000))
    snapshot_buffs_with_parent := (.bool true)
    snapshot_debuffs_with_parent := (.bool false) })
  let name : PyVal := (.str "Hollow Nozuchi")
  return (← newSkill {
    name := name
    is_GCD := (.bool true)
    timing_spec := (← newTimingSpec {
      base_cast_time := (.int 0)
      animation_lock := (.int 650)
      application_delay := (.int 270) })
    follow_up_skills := (.tuple [doton_hollow_nozuchi_follow_up]) })

/-- class_skills/melee/nin.py:274-298 `spinning_edge` -/
def spinning_edge (env : Env) : Py PyVal := do
  let name : PyVal := (.str "Spinning Edge")
  let spinning_edge_follow_up : PyVal := (← newFollowUp {
    skill := (← newSkill {
      name := name
      damage_spec := (← newDamageSpec { potency := (← getPotency table env name) }) })
    delay_after_parent_application := (.int 400) })
  return (← newSkill {
    name := name
    is_GCD := (.bool true)
    combo_spec := (.tuple [(← newComboSpec {})])
    timing_spec := (← newTimingSpec {
      base_cast_time := (.int 0)
      animation_lock := (.int 650)
      application_delay := (.int 0) })
    follow_up_skills := (mkDict [
      ((.str SimConsts.DEFAULT_CONDITION), (.tuple [spinning_edge_follow_up])),
      ((.str "Bunshin"), (.tuple [
        (← PyVal.getItem (← attr_all_bunshin_follow_ups env) (.str "Spinning Edge")),
        spinning_edge_follow_up]))]) })

/-- class_skills/melee/nin.py:300-338 `gust_slash` -/
def gust_slash (env : Env) : Py PyVal := do
  let name : PyVal := (.str "Gust Slash")
  let gust_slash_damage_follow_up : PyVal := (← newFollowUp {
    skill := (← newSkill {
      name := name
      damage_spec := (← newDamageSpec { potency := (← getPotency table env name) }) })
    delay_after_parent_application := (.int 400) })
  let gust_slash_damage_no_combo_follow_up : PyVal := (← newFollowUp {
    skill := (← newSkill {
      name := name
      damage_spec := (← newDamageSpec { potency := (← getPotencyNoCombo table env name) }) })
    delay_after_parent_application := (.int 400) })
  return (← newSkill {
    name := name
    is_GCD := (.bool true)
    combo_spec := (.tuple [(← newComboSpec { combo_actions := (.tuple [(.str "Spinning Edge")]) })])
    timing_spec := (← newTimingSpec {
      base_cast_time := (.int 0)
      animation_lock := (.int 650)
      application_delay := (.int 0) })
    follow_up_skills := (mkDict [
      ((.str SimConsts.DEFAULT_CONDITION), (.tuple [gust_slash_damage_follow_up])),
      ((.str "No Combo"), (.tuple [gust_slash_damage_no_combo_follow_up])),
      ((.str "Bunshin"), (.tuple [
        (← PyVal.getItem (← attr_all_bunshin_follow_ups env) (.str "Gust Slash")),
        gust_slash_damage_follow_up])),
      ((.str "Bunshin, No Combo"), (.tuple [
        (← PyVal.getItem (← attr_all_bunshin_follow_ups env) (.str "Gust Slash")),
        gust_slash_damage_no_combo_follow_up]))]) })

/-- class_skills/melee/nin.py:340-363 `throwing_dagger` -/
def throwing_dagger (env : Env) : Py PyVal := do
  let name : PyVal := (.str "Throwing Dagger")
  let throwing_dagger_follow_up : PyVal := (← newFollowUp {
    skill := (← newSkill {
      name := name
      damage_spec := (← newDamageSpec { potency := (← getPotency table env name) }) })
    delay_after_parent_application := (.int 620) })
  return (← newSkill {
    name := name
    is_GCD := (.bool true)
    timing_spec := (← newTimingSpec {
      base_cast_time := (.int 0)
      animation_lock := (.int 650)
      application_delay := (.int 0) })
    follow_up_skills := (mkDict [
      ((.str SimConsts.DEFAULT_CONDITION), (.tuple [throwing_dagger_follow_up])),
      ((.str "Bunshin"), (.tuple [
        throwing_dagger_follow_up,
        (← PyVal.getItem (← attr_all_bunshin_follow_ups env) (.str "Throwing Dagger"))]))]) })

/-- class_skills/melee/nin.py:365-400 `mug` -/
def mug (env : Env) : Py PyVal := do
  if env.ge .p70 then
    return .none
  let name : PyVal := (.str "Mug")
  let mug_damage_follow_up : PyVal := (← newFollowUp {
    skill := (← newSkill {
      name := name
      damage_spec := (← newDamageSpec { potency := (← getPotency table env name) }) })
    delay_after_parent_application := (.int 620) })
  let mug_debuff_follow_up : PyVal := (← newFollowUp {
    skill := (← newSkill {
      name := name
      debuff_spec := (← newStatusEffectSpec {
        damage_mult := (.float (105 / 100))
        duration := (← getSkillData table env name (.str "duration"))
        is_party_effect := (.bool true) }) })
    delay_after_parent_application := (.int 0) })
  return (← newSkill {
    name := name
    is_GCD := (.bool false)
    timing_spec := (← instantTimingSpec)
    follow_up_skills := (mkDict [
      ((.str SimConsts.DEFAULT_CONDITION), (.tuple [mug_damage_follow_up, mug_debuff_follow_up])),
      ((.str "Debuff Only"), (.tuple [mug_debuff_follow_up]))])
    off_class_default_condition := (.str "Debuff Only") })

/-- class_skills/melee/nin.py:402-446 `trick_attack` -/
def trick_attack (env : Env) : Py PyVal := do
  if decide (env.level ≥ 92) then
    return .none
  let name : PyVal := (.str "Trick Attack")
  let trick_damage_follow_up : PyVal := (← newFollowUp {
    skill := (← newSkill {
      name := name
      damage_spec := (← newDamageSpec { potency := (← getPotency table env name) }) })
    delay_after_parent_application := (.int 800) })
  let trick_damage_no_pos_follow_up : PyVal := (← newFollowUp {
    skill := (← newSkill {
      name := name
      damage_spec := (← newDamageSpec { potency := (← getPotencyNoPositional table env name) }) })
    delay_after_parent_application := (.int 800) })
  let trick_debuff_follow_up : PyVal := (← newFollowUp {
    skill := (← newSkill {
      name := name
      debuff_spec := (← newStatusEffectSpec {
        damage_mult := (.float (110 / 100))
        duration := (← PyVal.toInt (← PyVal.mul (.float (1577 / 100)) (.int 1000))) }) })
    delay_after_parent_application := (.int 0) })
  return (← newSkill {
    name := name
    is_GCD := (.bool false)
    follow_up_skills := (mkDict [
      ((.str SimConsts.DEFAULT_CONDITION), (.tuple [trick_damage_follow_up, trick_debuff_follow_up])),
      ((.str "No Positional"), (.tuple [trick_damage_no_pos_follow_up, trick_debuff_follow_up]))])
    timing_spec := (← instantTimingSpec) })

/-- class_skills/melee/nin.py:448-592 `aeolian_edge` -/
def aeolian_edge (env : Env) : Py PyVal := do
  let mut potency_increment_kaz : PyVal := .unbound
  let mut aeolian_edge_follow_up_kaz : PyVal := .unbound
  let mut aeolian_edge_no_combo_follow_up_kaz : PyVal := .unbound
  let mut aeolian_edge_no_pos_follow_up_kaz : PyVal := .unbound
  let mut aeolian_edge_no_pos_no_combo_follow_up_kaz : PyVal := .unbound
  let mut aoelian_follow_ups : PyVal := .unbound
  let mut aoelian_follow_ups_100_only : PyVal := .unbound
  let name : PyVal := (.str "Aeolian Edge")
  let aeolian_edge_follow_up : PyVal := (← newFollowUp {
    skill := (← newSkill {
      name := name
      damage_spec := (← newDamageSpec { potency := (← getPotency table env name) }) })
    delay_after_parent_application := (.int 540) })
  let aeolian_edge_no_combo_follow_up : PyVal := (← newFollowUp {
    skill := (← newSkill {
      name := name
      damage_spec := (← newDamageSpec { potency := (← getPotencyNoCombo table env name) }) })
    delay_after_parent_application := (.int 540) })
  let aeolian_edge_no_pos_follow_up : PyVal := (← newFollowUp {
    skill := (← newSkill {
      name := name
      damage_spec := (← newDamageSpec { potency := (← getPotencyNoPositional table env name) }) })
    delay_after_parent_application := (.int 540) })
  let aeolian_edge_no_pos_no_combo_follow_up : PyVal := (← newFollowUp {
    skill := (← newSkill {
      name := name
      damage_spec := (← newDamageSpec {
        potency := (← getSkillData table env name (.str "potency_no_pos_no_combo")) }) })
    delay_after_parent_application := (.int 540) })
  if env.ge .p70 then
    potency_increment_kaz := (← getSkillData table env name (.str "potency_increment_kaz"))
    aeolian_edge_follow_up_kaz := (← newFollowUp {
      skill := (← newSkill {
        name := name
        damage_spec := (← newDamageSpec {
          potency := (← PyVal.add (← getPotency table env name) potency_increment_kaz) }) })
      delay_after_parent_application := (.int 540) })
    aeolian_edge_no_combo_follow_up_kaz := (← newFollowUp {
      skill := (← newSkill {
        name := name
        damage_spec := (← newDamageSpec {
          potency := (← PyVal.add (← getPotencyNoCombo table env name) potency_increment_kaz) }) })
      delay_after_parent_application := (.int 540) })
    aeolian_edge_no_pos_follow_up_kaz := (← newFollowUp {
      skill := (← newSkill {
        name := name
        damage_spec := (← newDamageSpec {
          potency := (← PyVal.add (← getPotencyNoPositional table env name) potency_increment_kaz) }) })
      delay_after_parent_application := (.int 540) })
    aeolian_edge_no_pos_no_combo_follow_up_kaz := (← newFollowUp {
      skill := (← newSkill {
        name := name
        damage_spec := (← newDamageSpec {
          potency := (← PyVal.add (← getSkillData table env name (.str "potency_no_pos_no_combo")) potency_increment_kaz) }) })
      delay_after_parent_application := (.int 540) })
  aoelian_follow_ups := (mkDict [
    ((.str SimConsts.DEFAULT_CONDITION), (.tuple [aeolian_edge_follow_up])),
    ((.str "No Combo"), (.tuple [aeolian_edge_no_combo_follow_up])),
    ((.str "No Positional"), (.tuple [aeolian_edge_no_pos_follow_up])),
    ((.str "No Combo, No Positional"), (.tuple [aeolian_edge_no_pos_no_combo_follow_up])),
    ((.str "Bunshin"), (.tuple [
      aeolian_edge_follow_up,
      (← PyVal.getItem (← attr_all_bunshin_follow_ups env) (.str "Aeolian Edge"))])),
    ((.str "Bunshin, No Combo"), (.tuple [
      aeolian_edge_no_combo_follow_up,
      (← PyVal.getItem (← attr_all_bunshin_follow_ups env) (.str "Aeolian Edge"))])),
    ((.str "Bunshin, No Positional"), (.tuple [
      aeolian_edge_no_pos_follow_up,
      (← PyVal.getItem (← attr_all_bunshin_follow_ups env) (.str "Aeolian Edge"))])),
    ((.str "Bunshin, No Combo, No Positional"), (.tuple [
      aeolian_edge_no_pos_no_combo_follow_up,
      (← PyVal.getItem (← attr_all_bunshin_follow_ups env) (.str "Aeolian Edge"))]))])
  if env.ge .p70 then
    aoelian_follow_ups_100_only := (mkDict [
      ((.str "Kazematoi"), (.tuple [aeolian_edge_follow_up_kaz])),
      ((.str "Kazematoi, No Combo"), (.tuple [aeolian_edge_no_combo_follow_up_kaz])),
      ((.str "Kazematoi, No Positional"), (.tuple [aeolian_edge_no_pos_follow_up_kaz])),
      ((.str "Kazematoi, No Combo, No Positional"), (.tuple [aeolian_edge_no_pos_no_combo_follow_up_kaz])),
      ((.str "Bunshin, Kazematoi"), (.tuple [
        aeolian_edge_follow_up_kaz,
        (← PyVal.getItem (← attr_all_bunshin_follow_ups env) (.str "Aeolian Edge"))])),
      ((.str "Bunshin, Kazematoi, No Combo"), (.tuple [
        aeolian_edge_no_combo_follow_up_kaz,
        (← PyVal.getItem (← attr_all_bunshin_follow_ups env) (.str "Aeolian Edge"))])),
      ((.str "Bunshin, Kazematoi, No Positional"), (.tuple [
        aeolian_edge_no_pos_follow_up_kaz,
        (← PyVal.getItem (← attr_all_bunshin_follow_ups env) (.str "Aeolian Edge"))])),
      ((.str "Bunshin, Kazematoi, No Combo, No Positional"), (.tuple [
        aeolian_edge_no_pos_no_combo_follow_up_kaz,
        (← PyVal.getItem (← attr_all_bunshin_follow_ups env) (.str "Aeolian Edge"))]))])
    aoelian_follow_ups := (← PyVal.union aoelian_follow_ups aoelian_follow_ups_100_only)
  return (← newSkill {
    name := name
    is_GCD := (.bool true)
    combo_spec := (.tuple [(← newComboSpec { combo_actions := (.tuple [(.str "Gust Slash")]) })])
    timing_spec := (← newTimingSpec {
      base_cast_time := (.int 0)
      animation_lock := (.int 650)
      application_delay := (.int 0) })
    job_resource_spec := (← ifExp (env.ge .p70)
      (do return (.tuple [
          (← newJobResourceSpec { name := (.str "Kazematoi"), change := (← PyVal.neg (.int 1)) })]))
      (.ok (.tuple [])))
    follow_up_skills := aoelian_follow_ups })

/-- class_skills/melee/nin.py:594-621 `death_blossom` -/
def death_blossom (env : Env) : Py PyVal := do
  let name : PyVal := (.str "Death Blossom")
  let death_blossom_follow_up : PyVal := (← newFollowUp {
    skill := (← newSkill {
      name := name
      damage_spec := (← newDamageSpec { potency := (← getPotency table env name) })
      has_aoe := (.bool true) })
    delay_after_parent_application := (.int 710)
    primary_target_only := (.bool false) })
  return (← newSkill {
    name := name
    is_GCD := (.bool true)
    combo_spec := (.tuple [(← newComboSpec {})])
    timing_spec := (← newTimingSpec {
      base_cast_time := (.int 0)
      animation_lock := (.int 650)
      application_delay := (.int 0) })
    follow_up_skills := (mkDict [
      ((.str SimConsts.DEFAULT_CONDITION), (.tuple [death_blossom_follow_up])),
      ((.str "Bunshin"), (.tuple [
        death_blossom_follow_up,
        (← PyVal.getItem (← attr_all_bunshin_follow_ups env) (.str "Death Blossom"))]))])
    has_aoe := (.bool true) })

/-- class_skills/melee/nin.py:623-679 `hakke_mujinsatsu` -/
def hakke_mujinsatsu (env : Env) : Py PyVal := do
  let name : PyVal := (.str "Hakke Mujinsatsu")
  let hakke_follow_up : PyVal := (← newFollowUp {
    skill := (← newSkill {
      name := name
      damage_spec := (← newDamageSpec { potency := (← getPotency table env name) })
      has_aoe := (.bool true) })
    delay_after_parent_application := (.int 620)
    primary_target_only := (.bool false) })
  let hakke_no_combo_follow_up : PyVal := (← newFollowUp {
    skill := (← newSkill {
      name := name
      damage_spec := (← newDamageSpec { potency := (← getPotencyNoCombo table env name) })
      has_aoe := (.bool true) })
    delay_after_parent_application := (.int 620)
    primary_target_only := (.bool false) })
  let huton_follow_up_hakke : PyVal := (← get_huton_follow_up_hakke env)
  return (← newSkill {
    name := name
    is_GCD := (.bool true)
    combo_spec := (.tuple [(← newComboSpec { combo_actions := (.tuple [(.str "Death Blossom")]) })])
    timing_spec := (← newTimingSpec {
      base_cast_time := (.int 0)
      animation_lock := (.int 650)
      application_delay := (.int 0) })
    follow_up_skills := (mkDict [
      ((.str SimConsts.DEFAULT_CONDITION), (← ifExp (env.ge .p70)
        (.ok (.tuple [hakke_follow_up]))
        (.ok (.tuple [huton_follow_up_hakke, hakke_follow_up])))),
      ((.str "No Combo"), (.tuple [hakke_no_combo_follow_up])),
      ((.str "Bunshin"), (← ifExp (env.ge .p70)
        (do return (.tuple [
            (← PyVal.getItem (← attr_all_bunshin_follow_ups env) (.str "Hakke Mujinsatsu")),
            hakke_follow_up]))
        (do return (.tuple [
            huton_follow_up_hakke,
            (← PyVal.getItem (← attr_all_bunshin_follow_ups env) (.str "Hakke Mujinsatsu")),
            hakke_follow_up])))),
      ((.str "Bunshin, No Combo"), (.tuple [
        (← PyVal.getItem (← attr_all_bunshin_follow_ups env) (.str "Hakke Mujinsatsu")),
        hakke_no_combo_follow_up]))])
    has_aoe := (.bool true) })

/-- class_skills/melee/nin.py:681-781 `armor_crush` -/
def armor_crush (env : Env) : Py PyVal := do
  let name : PyVal := (.str "Armor Crush")
  let armor_crush_follow_up : PyVal := (← newFollowUp {
    skill := (← newSkill {
      name := name
      damage_spec := (← newDamageSpec { potency := (← getPotency table env name) }) })
    delay_after_parent_application := (.int 620) })
  let armor_crush_no_combo_follow_up : PyVal := (← newFollowUp {
    skill := (← newSkill {
      name := name
      damage_spec := (← newDamageSpec { potency := (← getPotencyNoCombo table env name) }) })
    delay_after_parent_application := (.int 620) })
  let armor_crush_no_pos_follow_up : PyVal := (← newFollowUp {
    skill := (← newSkill {
      name := name
      damage_spec := (← newDamageSpec { potency := (← getPotencyNoPositional table env name) }) })
    delay_after_parent_application := (.int 620) })
  let armor_crush_no_pos_no_combo_follow_up : PyVal := (← newFollowUp {
    skill := (← newSkill {
      name := name
      damage_spec := (← newDamageSpec {
        potency := (← getSkillData table env name (.str "potency_no_pos_no_combo")) }) })
    delay_after_parent_application := (.int 620) })
  let huton_follow_up_armor_crush : PyVal := (← get_huton_follow_up_armor_crush env)
  return (← newSkill {
    name := name
    is_GCD := (.bool true)
    combo_spec := (.tuple [(← newComboSpec { combo_actions := (.tuple [(.str "Gust Slash")]) })])
    timing_spec := (← newTimingSpec {
      base_cast_time := (.int 0)
      animation_lock := (.int 650)
      application_delay := (.int 0) })
    job_resource_spec := (← getSkillData table env name (.str "job_resource"))
    follow_up_skills := (mkDict [
      ((.str SimConsts.DEFAULT_CONDITION), (← ifExp (env.ge .p70)
        (.ok (.tuple [armor_crush_follow_up]))
        (.ok (.tuple [armor_crush_follow_up, huton_follow_up_armor_crush])))),
      ((.str "No Combo"), (.tuple [armor_crush_no_combo_follow_up])),
      ((.str "No Positional"), (← ifExp (env.ge .p70)
        (.ok (.tuple [armor_crush_no_pos_follow_up]))
        (.ok (.tuple [armor_crush_no_pos_follow_up, huton_follow_up_armor_crush])))),
      ((.str "No Combo, No Positional"), (.tuple [armor_crush_no_pos_no_combo_follow_up])),
      ((.str "Bunshin"), (← ifExp (env.ge .p70)
        (do return (.tuple [
            armor_crush_follow_up,
            (← PyVal.getItem (← attr_all_bunshin_follow_ups env) (.str "Armor Crush"))]))
        (do return (.tuple [
            armor_crush_follow_up,
            huton_follow_up_armor_crush,
            (← PyVal.getItem (← attr_all_bunshin_follow_ups env) (.str "Armor Crush"))])))),
      ((.str "Bunshin, No Combo"), (.tuple [
        armor_crush_no_combo_follow_up,
        (← PyVal.getItem (← attr_all_bunshin_follow_ups env) (.str "Armor Crush"))])),
      ((.str "Bunshin, No Positional"), (← ifExp (env.ge .p70)
        (do return (.tuple [
            armor_crush_no_pos_follow_up,
            (← PyVal.getItem (← attr_all_bunshin_follow_ups env) (.str "Armor Crush"))]))
        (do return (.tuple [
            armor_crush_no_pos_follow_up,
            huton_follow_up_armor_crush,
            (← PyVal.getItem (← attr_all_bunshin_follow_ups env) (.str "Armor Crush"))])))),
      ((.str "Bunshin, No Combo, No Positional"), (.tuple [
        armor_crush_no_pos_no_combo_follow_up,
        (← PyVal.getItem (← attr_all_bunshin_follow_ups env) (.str "Armor Crush"))]))]) })

/-- class_skills/melee/nin.py:783-830 `dokumori` -/
def dokumori (env : Env) : Py PyVal := do
  if env.le .p655 then
    return .none
  let name : PyVal := (.str "Dokumori")
  let dokumori_debuff_follow_up : PyVal := (← newFollowUp {
    skill := (← newSkill {
      name := name
      debuff_spec := (← newStatusEffectSpec {
        damage_mult := (.float (105 / 100))
        duration := (← getSkillData table env name (.str "duration"))
        is_party_effect := (.bool true) }) })
    delay_after_parent_application := (.int 0)
    primary_target_only := (.bool false) })
  let dokumori_damage_follow_up : PyVal := (← newFollowUp {
    skill := (← newSkill {
      name := name
      damage_spec := (mkDict [
        ((.str SimConsts.DEFAULT_CONDITION), (← newDamageSpec { potency := (← getPotency table env name) }))])
      has_aoe := (← ifExp (env.ge .p71) (.ok (.bool true)) (.ok (.bool false)))
      aoe_dropoff := (← ifExp (env.ge .p71) (.ok (.float (25 / 100))) (.ok .none)) })
    delay_after_parent_application := (.int 1070)
    primary_target_only := (.bool false) })
  return (← newSkill {
    name := name
    is_GCD := (.bool false)
    timing_spec := (← newTimingSpec {
      base_cast_time := (.int 0)
      animation_lock := (.int 650)
      application_delay := (.int 0) })
    follow_up_skills := (mkDict [
      ((.str SimConsts.DEFAULT_CONDITION), (.tuple [dokumori_damage_follow_up, dokumori_debuff_follow_up])),
      ((.str "Debuff Only"), (.tuple [dokumori_debuff_follow_up]))])
    off_class_default_condition := (.str "Debuff Only")
    has_aoe := (← ifExp (env.ge .p71) (.ok (.bool true)) (.ok (.bool false))) })

/-- class_skills/melee/nin.py:832-852 `huraijin` -/
def huraijin (env : Env) : Py PyVal := do
  if env.gt .p655 then
    return .none
  let huton_follow_up_huton : PyVal := (← get_huton_follow_up_huton env)
  let name : PyVal := (.str "Huraijin")
  return (← newSkill {
    name := name
    is_GCD := (.bool true)
    damage_spec := (← newDamageSpec { potency := (← getPotency table env name) })
    timing_spec := (← newTimingSpec {
      base_cast_time := (.int 0)
      animation_lock := (.int 650)
      application_delay := (.int 800) })
    follow_up_skills := (mkDict [
      ((.str SimConsts.DEFAULT_CONDITION), (.tuple [huton_follow_up_huton])),
      ((.str "Bunshin"), (.tuple [
        huton_follow_up_huton,
        (← PyVal.getItem (← attr_all_bunshin_follow_ups env) (.str "Huraijin"))]))]) })

/-- class_skills/melee/nin.py:854-865 `hellfrog_medium` -/
def hellfrog_medium (env : Env) : Py PyVal := do
  let name : PyVal := (.str "Hellfrog Medium")
  return (← newSkill {
    name := name
    is_GCD := (.bool false)
    damage_spec := (← newDamageSpec { potency := (← getPotency table env name) })
    timing_spec := (← newTimingSpec {
      base_cast_time := (.int 0)
      animation_lock := (.int 650)
      application_delay := (.int 800) })
    has_aoe := (.bool true) })

/-- class_skills/melee/nin.py:867-884 `bhavacakra` -/
def bhavacakra (env : Env) : Py PyVal := do
  let name : PyVal := (.str "Bhavacakra")
  return (← newSkill {
    name := name
    is_GCD := (.bool false)
    damage_spec := (mkDict [
      ((.str SimConsts.DEFAULT_CONDITION), (← newDamageSpec { potency := (← getPotency table env name) })),
      ((.str "Meisui"), (← newDamageSpec { potency := (← getSkillData table env name (.str "potency_mesui")) }))])
    timing_spec := (← newTimingSpec {
      base_cast_time := (.int 0)
      animation_lock := (.int 650)
      application_delay := (.int 620) }) })

/-- class_skills/melee/nin.py:886-914 `phantom_kamaitachi` -/
def phantom_kamaitachi (env : Env) : Py PyVal := do
  let mut name : PyVal := .unbound
  name := (.str "Phantom Kamaitachi (pet)")
  let phantom_follow_up_damage : PyVal := (← newFollowUp {
    skill := (← newSkill {
      name := name
      damage_spec := (mkDict [
        ((.str SimConsts.DEFAULT_CONDITION), (← newDamageSpec {
          potency := (← getPotency table env name)
          damage_class := (.damageClass .pet)
          pet_job_mod_override := (.int 100) }))])
      has_aoe := (.bool true)
      aoe_dropoff := (.float (5 / 10)) })
    delay_after_parent_application := (.int 1560)
    snapshot_buffs_with_parent := (.bool true)
    snapshot_debuffs_with_parent := (.bool true)
    primary_target_only := (.bool false) })
  name := (.str "Phantom Kamaitachi")
  return (← newSkill {
    name := name
    is_GCD := (.bool true)
    timing_spec := (← newTimingSpec { base_cast_time := (.int 0) })
    status_effect_denylist := (.tuple [(.str "Dragon Sight")])
    follow_up_skills := (.tuple [phantom_follow_up_damage]) })

/-- class_skills/melee/nin.py:916-930 `forked_raiju` -/
def forked_raiju (env : Env) : Py PyVal := do
  let name : PyVal := (.str "Forked Raiju")
  return (← newSkill {
    name := name
    is_GCD := (.bool true)
    damage_spec := (← newDamageSpec { potency := (← getPotency table env name) })
    timing_spec := (← newTimingSpec {
      base_cast_time := (.int 0)
      animation_lock := (.int 650)
      application_delay := (.int 620) })
    follow_up_skills := (mkDict [
      ((.str SimConsts.DEFAULT_CONDITION), (.tuple [])),
      ((.str "Bunshin"), (.tuple [(← PyVal.getItem (← attr_all_bunshin_follow_ups env) (.str "Forked Raiju"))]))]) })

/-- class_skills/melee/nin.py:932-946 `fleeting_raiju` -/
def fleeting_raiju (env : Env) : Py PyVal := do
  let name : PyVal := (.str "Fleeting Raiju")
  return (← newSkill {
    name := name
    is_GCD := (.bool true)
    damage_spec := (← newDamageSpec { potency := (← getPotency table env name) })
    timing_spec := (← newTimingSpec {
      base_cast_time := (.int 0)
      animation_lock := (.int 650)
      application_delay := (.int 760) })
    follow_up_skills := (mkDict [
      ((.str SimConsts.DEFAULT_CONDITION), (.tuple [])),
      ((.str "Bunshin"), (.tuple [(← PyVal.getItem (← attr_all_bunshin_follow_ups env) (.str "Fleeting Raiju"))]))]) })

/-- class_skills/melee/nin.py:948-971 `fuma_shuriken` -/
def fuma_shuriken (env : Env) : Py PyVal := do
  let name : PyVal := (.str "Fuma Shuriken")
  return (← newSkill {
    name := name
    is_GCD := (.bool true)
    damage_spec := (← newDamageSpec { potency := (← getPotency table env name) })
    timing_spec := (mkDict [
      ((.str SimConsts.DEFAULT_CONDITION), (← newTimingSpec {
        base_cast_time := (.int 0)
        gcd_base_recast_time := (.int 1500)
        application_delay := (.int 890)
        affected_by_speed_stat := (.bool false)
        affected_by_haste_buffs := (.bool false) })),
      ((.str "Ten Chi Jin"), (← newTimingSpec {
        base_cast_time := (.int 0)
        gcd_base_recast_time := (.int 1000)
        application_delay := (.int 890)
        affected_by_speed_stat := (.bool false)
        affected_by_haste_buffs := (.bool false) }))]) })

/-- class_skills/melee/nin.py:973-996 `katon` -/
def katon (env : Env) : Py PyVal := do
  let name : PyVal := (.str "Katon")
  return (← newSkill {
    name := name
    is_GCD := (.bool true)
    damage_spec := (← newDamageSpec { potency := (← getPotency table env name) })
    timing_spec := (mkDict [
      ((.str SimConsts.DEFAULT_CONDITION), (← newTimingSpec {
        base_cast_time := (.int 0)
        gcd_base_recast_time := (.int 1500)
        application_delay := (.int 940)
        affected_by_speed_stat := (.bool false)
        affected_by_haste_buffs := (.bool false) })),
      ((.str "Ten Chi Jin"), (← newTimingSpec {
        base_cast_time := (.int 0)
        gcd_base_recast_time := (.int 1000)
        application_delay := (.int 940)
        affected_by_speed_stat := (.bool false)
        affected_by_haste_buffs := (.bool false) }))]) })

/-- class_skills/melee/nin.py:998-1021 `raiton` -/
def raiton (env : Env) : Py PyVal := do
  let name : PyVal := (.str "Raiton")
  return (← newSkill {
    name := name
    is_GCD := (.bool true)
    damage_spec := (← newDamageSpec { potency := (← getPotency table env name) })
    timing_spec := (mkDict [
      ((.str SimConsts.DEFAULT_CONDITION), (← newTimingSpec {
        base_cast_time := (.int 0)
        gcd_base_recast_time := (.int 1500)
        application_delay := (.int 710)
        affected_by_speed_stat := (.bool false)
        affected_by_haste_buffs := (.bool false) })),
      ((.str "Ten Chi Jin"), (← newTimingSpec {
        base_cast_time := (.int 0)
        gcd_base_recast_time := (.int 1000)
        application_delay := (.int 710)
        affected_by_speed_stat := (.bool false)
        affected_by_haste_buffs := (.bool false) }))]) })

/-- class_skills/melee/nin.py:1023-1046 `hyoton` -/
def hyoton (env : Env) : Py PyVal := do
  let name : PyVal := (.str "Hyoton")
  return (← newSkill {
    name := name
    is_GCD := (.bool true)
    damage_spec := (← newDamageSpec { potency := (← getPotency table env name) })
    timing_spec := (mkDict [
      ((.str SimConsts.DEFAULT_CONDITION), (← newTimingSpec {
        base_cast_time := (.int 0)
        gcd_base_recast_time := (.int 1500)
        application_delay := (.int 1160)
        affected_by_speed_stat := (.bool false)
        affected_by_haste_buffs := (.bool false) })),
      ((.str "Ten Chi Jin"), (← newTimingSpec {
        base_cast_time := (.int 0)
        gcd_base_recast_time := (.int 1000)
        application_delay := (.int 1160)
        affected_by_speed_stat := (.bool false)
        affected_by_haste_buffs := (.bool false) }))]) })

/-- class_skills/melee/nin.py:1048-1076 `huton` -/
def huton (env : Env) : Py PyVal := do
  let name : PyVal := (.str "Huton")
  return (← newSkill {
    name := name
    is_GCD := (.bool true)
    damage_spec := (← getSkillData table env name (.str "damage_spec"))
    timing_spec := (mkDict [
      ((.str SimConsts.DEFAULT_CONDITION), (← newTimingSpec {
        base_cast_time := (.int 0)
        gcd_base_recast_time := (.int 1500)
        application_delay := (.int 0)
        affected_by_speed_stat := (.bool false)
        affected_by_haste_buffs := (.bool false) })),
      ((.str "Ten Chi Jin"), (← newTimingSpec {
        base_cast_time := (.int 0)
        gcd_base_recast_time := (.int 1000)
        application_delay := (.int 0)
        affected_by_speed_stat := (.bool false)
        affected_by_haste_buffs := (.bool false) }))])
    follow_up_skills := (← ifExp (env.eq .p655)
      (do return (.tuple [(← get_huton_follow_up_huton env)]))
      (.ok (.tuple []))) })

/-- class_skills/melee/nin.py:1078-1102 `suiton` -/
def suiton (env : Env) : Py PyVal := do
  let name : PyVal := (.str "Suiton")
  return (← newSkill {
    name := name
    is_GCD := (.bool true)
    damage_spec := (← newDamageSpec { potency := (← getPotency table env name) })
    timing_spec := (mkDict [
      ((.str SimConsts.DEFAULT_CONDITION), (← newTimingSpec {
        base_cast_time := (.int 0)
        gcd_base_recast_time := (.int 1500)
        application_delay := (.int 980)
        affected_by_speed_stat := (.bool false)
        affected_by_haste_buffs := (.bool false) })),
      ((.str "Ten Chi Jin"), (← newTimingSpec {
        base_cast_time := (.int 0)
        gcd_base_recast_time := (.int 1000)
        application_delay := (.int 980)
        affected_by_speed_stat := (.bool false)
        affected_by_haste_buffs := (.bool false) }))]) })

/-- class_skills/melee/nin.py:1104-1118 `goka_mekkyaku` -/
def goka_mekkyaku (env : Env) : Py PyVal := do
  let name : PyVal := (.str "Goka Mekkyaku")
  return (← newSkill {
    name := name
    is_GCD := (.bool true)
    damage_spec := (← newDamageSpec { potency := (← getPotency table env name) })
    timing_spec := (← newTimingSpec {
      base_cast_time := (.int 0)
      gcd_base_recast_time := (.int 1500)
      application_delay := (.int 760)
      affected_by_speed_stat := (.bool false)
      affected_by_haste_buffs := (.bool false) }) })

/-- class_skills/melee/nin.py:1120-1134 `hyosho_ranryu` -/
def hyosho_ranryu (env : Env) : Py PyVal := do
  let name : PyVal := (.str "Hyosho Ranryu")
  return (← newSkill {
    name := name
    is_GCD := (.bool true)
    damage_spec := (← newDamageSpec { potency := (← getPotency table env name) })
    timing_spec := (← newTimingSpec {
      base_cast_time := (.int 0)
      gcd_base_recast_time := (.int 1500)
      application_delay := (.int 620)
      affected_by_speed_stat := (.bool false)
      affected_by_haste_buffs := (.bool false) }) })

/-- class_skills/melee/nin.py:1136-1149 `bunshin` -/
def bunshin (env : Env) : Py PyVal := do
  let name : PyVal := (.str "Bunshin")
  return (← newSkill {
    name := name
    is_GCD := (.bool false)
    timing_spec := (← instantTimingSpec)
    buff_spec := (← newStatusEffectSpec {
      add_to_skill_modifier_condition := (.bool true)
      num_uses := (.int 5)
      duration := (← PyVal.toInt (← PyVal.mul (.float (307 / 10)) (.int 1000)))
      skill_allowlist := (← getSkillData table env name (.str "allowlist")) }) })

/-- class_skills/melee/nin.py:1151-1167 `ten_chi_jin` -/
def ten_chi_jin (env : Env) : Py PyVal := do
  let name : PyVal := (.str "Ten Chi Jin")
  return (← newSkill {
    name := name
    is_GCD := (.bool false)
    timing_spec := (← instantTimingSpec)
    buff_spec := (← newStatusEffectSpec {
      add_to_skill_modifier_condition := (.bool true)
      num_uses := (.int 3)
      duration := (.int 6000)
      skill_allowlist := (← attr_ninjutsus env) })
    channeling_spec := (← newChannelingSpec {
      duration := (.int 6000)
      skill_allowlist := (← attr_ninjutsus env)
      num_uses := (.int 3) }) })

/-- class_skills/melee/nin.py:1169-1182 `meisui` -/
def meisui (env : Env) : Py PyVal := do
  let name : PyVal := (.str "Meisui")
  return (← newSkill {
    name := name
    is_GCD := (.bool false)
    timing_spec := (← instantTimingSpec)
    buff_spec := (← newStatusEffectSpec {
      add_to_skill_modifier_condition := (.bool true)
      num_uses := (.int 1)
      duration := (← PyVal.mul (.int 30) (.int 1000))
      skill_allowlist := (← getSkillData table env name (.str "allowlist")) }) })

/-- class_skills/melee/nin.py:1184-1217 `kunais_bane` -/
def kunais_bane (env : Env) : Py PyVal := do
  if decide (env.level < 92) then
    return .none
  let name : PyVal := (.str "Kunai's Bane")
  let kunai_damage_follow_up : PyVal := (← newFollowUp {
    skill := (← newSkill {
      name := name
      damage_spec := (← newDamageSpec { potency := (← getPotency table env name) })
      has_aoe := (.bool true) })
    delay_after_parent_application := (.int 1290)
    primary_target_only := (.bool false) })
  let kunai_debuff_follow_up : PyVal := (← newFollowUp {
    skill := (← newSkill {
      name := name
      debuff_spec := (← newStatusEffectSpec {
        damage_mult := (.float (110 / 100))
        duration := (← getSkillData table env name (.str "duration")) }) })
    delay_after_parent_application := (.int 0)
    primary_target_only := (.bool false) })
  return (← newSkill {
    name := name
    is_GCD := (.bool false)
    timing_spec := (← newTimingSpec {
      base_cast_time := (.int 0)
      animation_lock := (.int 650)
      application_delay := (.int 0) })
    follow_up_skills := (.tuple [kunai_damage_follow_up, kunai_debuff_follow_up])
    has_aoe := (.bool true) })

/-- class_skills/melee/nin.py:1219-1231 `deathfrog_medium` -/
def deathfrog_medium (env : Env) : Py PyVal := do
  if decide (env.level < 96) then
    return .none
  let name : PyVal := (.str "Deathfrog Medium")
  return (← newSkill {
    name := name
    is_GCD := (.bool false)
    damage_spec := (← newDamageSpec { potency := (← getPotency table env name) })
    timing_spec := (← newTimingSpec {
      base_cast_time := (.int 0)
      animation_lock := (.int 650)
      application_delay := (.int 800) }) })

/-- class_skills/melee/nin.py:1233-1252 `zesho_meppo` -/
def zesho_meppo (env : Env) : Py PyVal := do
  if decide (env.level < 96) then
    return .none
  let name : PyVal := (.str "Zesho Meppo")
  return (← newSkill {
    name := name
    is_GCD := (.bool false)
    damage_spec := (mkDict [
      ((.str SimConsts.DEFAULT_CONDITION), (← newDamageSpec { potency := (← getPotency table env name) })),
      ((.str "Meisui"), (← newDamageSpec { potency := (← getSkillData table env name (.str "potency_mesui")) }))])
    timing_spec := (← newTimingSpec {
      base_cast_time := (.int 0)
      animation_lock := (.int 650)
      application_delay := (.int 1030) }) })

/-- class_skills/melee/nin.py:1254-1268 `tenri_jindo` -/
def tenri_jindo (env : Env) : Py PyVal := do
  if decide (env.level < 100) then
    return .none
  let name : PyVal := (.str "Tenri Jindo")
  return (← newSkill {
    name := name
    is_GCD := (.bool false)
    damage_spec := (← newDamageSpec { potency := (← getPotency table env name) })
    timing_spec := (← newTimingSpec {
      base_cast_time := (.int 0)
      animation_lock := (.int 650)
      application_delay := (.int 1690) })
    has_aoe := (.bool true)
    aoe_dropoff := (.float (5 / 10)) })

/-- class_skills/melee/nin.py:1270-1292 `kassatsu` -/
def kassatsu (_env : Env) : Py PyVal := do
  let name : PyVal := (.str "Kassatsu")
  return (← newSkill {
    name := name
    is_GCD := (.bool false)
    timing_spec := (← instantTimingSpec)
    buff_spec := (← newStatusEffectSpec {
      add_to_skill_modifier_condition := (.bool true)
      num_uses := (.int 1)
      duration := (← PyVal.mul (.int 15) (.int 1000))
      damage_mult := (.float (13 / 10))
      skill_allowlist := (.tuple [
        (.str "Fuma Shuriken"), (.str "Raiton"), (.str "Doton"), (.str "Suiton"),
        (.str "Goka Mekkyaku"), (.str "Huton"), (.str "Hyosho Ranryu")]) }) })

/-- class_skills/melee/nin.py:1298-1301 `ten` -/
def ten (env : Env) : Py PyVal := do
  let name : PyVal := (.str "Ten")
  return (← newSkill {
    name := name
    is_GCD := (.bool true)
    timing_spec := (← attr_mudra_timing_spec env) })

/-- class_skills/melee/nin.py:1303-1306 `chi` -/
def chi (env : Env) : Py PyVal := do
  let name : PyVal := (.str "Chi")
  return (← newSkill {
    name := name
    is_GCD := (.bool true)
    timing_spec := (← attr_mudra_timing_spec env) })

/-- class_skills/melee/nin.py:1308-1311 `jin` -/
def jin (env : Env) : Py PyVal := do
  let name : PyVal := (.str "Jin")
  return (← newSkill {
    name := name
    is_GCD := (.bool true)
    timing_spec := (← attr_mudra_timing_spec env) })

/-- class_skills/melee/nin.py:1313-1316 `true_north` -/
def true_north (_env : Env) : Py PyVal := do
  let name : PyVal := (.str "True North")
  return (← newSkill {
    name := name
    is_GCD := (.bool false)
    timing_spec := (← instantTimingSpec) })

/-- class_skills/melee/nin.py:1318-1321 `hide` -/
def hide (_env : Env) : Py PyVal := do
  let name : PyVal := (.str "Hide")
  return (← newSkill {
    name := name
    is_GCD := (.bool false)
    timing_spec := (← instantTimingSpec) })

/-- class_skills/melee/nin.py:19-1321 `NinSkills`; the methods in the order of `dir`. -/
def job (env : Env) : JobClass where
  jobClass := "NIN"
  init := do
    let _ ← attr_all_bunshin_follow_ups env
    let _ ← attr_ninjutsus env
    let _ ← attr_mudra_timing_spec env
  skillMethods := [
    aeolian_edge env,
    armor_crush env,
    auto env,
    bhavacakra env,
    bunshin env,
    chi env,
    death_blossom env,
    deathfrog_medium env,
    dokumori env,
    doton env,
    dream_within_a_dream env,
    fleeting_raiju env,
    forked_raiju env,
    fuma_shuriken env,
    goka_mekkyaku env,
    gust_slash env,
    hakke_mujinsatsu env,
    hellfrog_medium env,
    hide env,
    hollow_nozuchi env,
    huraijin env,
    huton env,
    hyosho_ranryu env,
    hyoton env,
    jin env,
    kassatsu env,
    katon env,
    kunais_bane env,
    meisui env,
    mug env,
    phantom_kamaitachi env,
    raiton env,
    spinning_edge env,
    suiton env,
    ten env,
    ten_chi_jin env,
    tenri_jindo env,
    throwing_dagger env,
    trick_attack env,
    true_north env,
    zesho_meppo env]
  resourceMethods := [kazematoi env]

end Ama.GameData.Nin
