import Verif.Model.GameData.Values

/-!
# SAM

Model of `simulator/game_data/class_skills/melee/sam.py` and `simulator/game_data/class_skills/melee/sam_data.py`, written by
`tools/translate.py`: one function per method.  Paths in the comments are relative to
`simulator/game_data`.
-/

namespace Ama.GameData.Sam

open PyVal

/-- class_skills/melee/sam_data.py:7-140 `ALL_DATA` -/
def table : Table := [
  ("Hakaze", [(90, [("potency", [(.p655, .ok (.int 200))])])]),
  ("Gyofu", [
    (100, [
      ("potency", [(.p70, .ok (.int 240)), (.p705, .ok (.int 230)), (.p71, .ok (.int 240))])])]),
  ("Jinpu", [
    (90, [
      ("potency", [(.p655, .ok (.int 280))]),
      ("potency_no_combo", [(.p655, .ok (.int 120))]),
      ("combo_actions", [(.p655, .ok (.tuple [(.str "Hakaze")]))])]),
    (100, [
      ("potency", [(.p70, .ok (.int 320)), (.p705, .ok (.int 300))]),
      ("potency_no_combo", [(.p70, .ok (.int 160)), (.p705, .ok (.int 140))]),
      ("combo_actions", [(.p70, .ok (.tuple [(.str "Gyofu")]))])])]),
  ("Enpi", [
    (90, [
      ("potency", [(.p655, .ok (.int 100))]),
      ("potency_enhanced", [(.p655, .ok (.int 260))])]),
    (100, [
      ("potency", [(.p70, .ok (.int 100))]),
      ("potency_enhanced", [(.p70, .ok (.int 260))])])]),
  ("Shifu", [
    (90, [
      ("potency", [(.p655, .ok (.int 280))]),
      ("potency_no_combo", [(.p655, .ok (.int 120))]),
      ("combo_actions", [(.p655, .ok (.tuple [(.str "Hakaze")]))])]),
    (100, [
      ("potency", [(.p70, .ok (.int 320)), (.p705, .ok (.int 300))]),
      ("potency_no_combo", [(.p70, .ok (.int 160)), (.p705, .ok (.int 140))]),
      ("combo_actions", [(.p70, .ok (.tuple [(.str "Gyofu")]))])])]),
  ("Gekko", [
    (90, [
      ("potency", [(.p655, .ok (.int 380)), (.p705, .ok (.int 370))]),
      ("potency_no_combo", [(.p655, .ok (.int 170)), (.p705, .ok (.int 160))]),
      ("potency_no_pos", [(.p655, .ok (.int 330)), (.p705, .ok (.int 320))]),
      ("potency_no_pos_no_combo", [(.p655, .ok (.int 120)), (.p705, .ok (.int 110))])]),
    (100, [
      ("potency", [(.p70, .ok (.int 440)), (.p705, .ok (.int 420))]),
      ("potency_no_combo", [(.p70, .ok (.int 230)), (.p705, .ok (.int 210))]),
      ("potency_no_pos", [(.p70, .ok (.int 390)), (.p705, .ok (.int 370))]),
      ("potency_no_pos_no_combo", [(.p70, .ok (.int 180)), (.p705, .ok (.int 160))])])]),
  ("Higanbana (dot)", [
    (90, [("potency", [(.p655, .ok (.int 45))])]),
    (100, [("potency", [(.p70, .ok (.int 50))])])]),
  ("Higanbana", [
    (90, [("potency", [(.p655, .ok (.int 200))])]),
    (100, [("potency", [(.p70, .ok (.int 200))])])]),
  ("Tenka Goken", [
    (90, [("potency", [(.p655, .ok (.int 300))])]),
    (100, [("potency", [(.p70, .ok (.int 300))])])]),
  ("Midare Setsugekka", [
    (90, [("potency", [(.p655, .ok (.int 640)), (.p705, .ok (.int 620))])]),
    (100, [("potency", [(.p70, .ok (.int 700)), (.p705, .ok (.int 640))])])]),
  ("Kaeshi: Higanbana", [(90, [("potency", [(.p655, .ok (.int 200))])])]),
  ("Kaeshi: Goken", [
    (90, [("potency", [(.p655, .ok (.int 300))])]),
    (100, [("potency", [(.p70, .ok (.int 300))])])]),
  ("Kaeshi: Setsugekka", [
    (90, [("potency", [(.p655, .ok (.int 640)), (.p705, .ok (.int 620))])]),
    (100, [("potency", [(.p70, .ok (.int 700)), (.p705, .ok (.int 640))])])]),
  ("Mangetsu", [
    (90, [
      ("potency", [(.p655, .ok (.int 120))]),
      ("potency_no_combo", [(.p655, .ok (.int 100))])]),
    (100, [
      ("potency", [(.p70, .ok (.int 120))]),
      ("potency_no_combo", [(.p70, .ok (.int 100))])])]),
  ("Kasha", [
    (90, [
      ("potency", [(.p655, .ok (.int 380)), (.p705, .ok (.int 370))]),
      ("potency_no_combo", [(.p655, .ok (.int 170)), (.p705, .ok (.int 160))]),
      ("potency_no_pos", [(.p655, .ok (.int 330)), (.p705, .ok (.int 320))]),
      ("potency_no_pos_no_combo", [(.p655, .ok (.int 120)), (.p705, .ok (.int 110))])]),
    (100, [
      ("potency", [(.p70, .ok (.int 440)), (.p705, .ok (.int 420))]),
      ("potency_no_combo", [(.p70, .ok (.int 230)), (.p705, .ok (.int 210))]),
      ("potency_no_pos", [(.p70, .ok (.int 390)), (.p705, .ok (.int 370))]),
      ("potency_no_pos_no_combo", [(.p70, .ok (.int 180)), (.p705, .ok (.int 160))])])]),
  ("Oka", [
    (90, [
      ("potency", [(.p655, .ok (.int 120))]),
      ("potency_no_combo", [(.p655, .ok (.int 100))])]),
    (100, [
      ("potency", [(.p70, .ok (.int 120))]),
      ("potency_no_combo", [(.p70, .ok (.int 100))])])]),
  ("Yukikaze", [
    (90, [
      ("potency", [(.p655, .ok (.int 300)), (.p705, .ok (.int 290))]),
      ("potency_no_combo", [(.p655, .ok (.int 120)), (.p705, .ok (.int 110))]),
      ("combo_actions", [(.p655, .ok (.tuple [(.str "Hakaze")]))])]),
    (100, [
      ("potency", [(.p70, .ok (.int 360)), (.p705, .ok (.int 340))]),
      ("potency_no_combo", [(.p70, .ok (.int 180)), (.p705, .ok (.int 160))]),
      ("combo_actions", [(.p70, .ok (.tuple [(.str "Gyofu")]))])])]),
  ("Hissatsu: Shinten", [
    (90, [("potency", [(.p655, .ok (.int 250))])]),
    (100, [("potency", [(.p70, .ok (.int 250))])])]),
  ("Hissatsu: Gyoten", [
    (90, [("potency", [(.p655, .ok (.int 100))])]),
    (100, [("potency", [(.p70, .ok (.int 100))])])]),
  ("Hissatsu: Yaten", [
    (90, [("potency", [(.p655, .ok (.int 100))])]),
    (100, [("potency", [(.p70, .ok (.int 100))])])]),
  ("Hissatsu: Kyuten", [
    (90, [("potency", [(.p655, .ok (.int 120))])]),
    (100, [("potency", [(.p70, .ok (.int 120))])])]),
  ("Hissatsu: Guren", [
    (90, [("potency", [(.p655, .ok (.int 500))])]),
    (100, [("potency", [(.p70, .ok (.int 500))])])]),
  ("Hissatsu: Senei", [
    (90, [("potency", [(.p655, .ok (.int 860)), (.p705, .ok (.int 800))])]),
    (100, [("potency", [(.p70, .ok (.int 860)), (.p705, .ok (.int 800))])])]),
  ("Shoha", [
    (90, [("potency", [(.p655, .ok (.int 560))])]),
    (100, [("potency", [(.p70, .ok (.int 640))])])]),
  ("Shoha II", [(90, [("potency", [(.p655, .ok (.int 200))])])]),
  ("Fuko", [
    (90, [("potency", [(.p655, .ok (.int 100))])]),
    (100, [("potency", [(.p70, .ok (.int 100))])])]),
  ("Ogi Namikiri", [
    (90, [("potency", [(.p655, .ok (.int 860))])]),
    (100, [("potency", [(.p70, .ok (.int 900))])])]),
  ("Kaeshi: Namikiri", [
    (90, [("potency", [(.p655, .ok (.int 860))])]),
    (100, [("potency", [(.p70, .ok (.int 900))])])]),
  ("Zanshin", [
    (100, [
      ("potency", [(.p70, .ok (.int 900)), (.p705, .ok (.int 820)), (.p71, .ok (.int 900))])])]),
  ("Tendo Goken", [(100, [("potency", [(.p70, .ok (.int 420)), (.p705, .ok (.int 410))])])]),
  ("Tendo Setsugekka", [
    (100, [
      ("potency", [(.p70, .ok (.int 1020))]),
      ("gcd_base_recast_time", [(.p70, .ok (.int 3200)), (.p701, .ok (.int 2500))])])]),
  ("Tendo Kaeshi Goken", [
    (100, [("potency", [(.p70, .ok (.int 420)), (.p705, .ok (.int 410))])])]),
  ("Tendo Kaeshi Setsugekka", [
    (100, [
      ("potency", [(.p70, .ok (.int 1020))]),
      ("gcd_base_recast_time", [(.p70, .ok (.int 3200)), (.p701, .ok (.int 2500))])])])]

/-- class_skills/melee/sam.py:23-32 `__get_fugetsu_follow_up` -/
def get_fugetsu_follow_up (_env : Env) : Py PyVal := do
  let name : PyVal := (.str "Fugetsu")
  return (← newFollowUp {
    skill := (← newSkill {
      name := name
      is_GCD := (.bool false)
      buff_spec := (← newStatusEffectSpec { damage_mult := (.float (113 / 100)), duration := (.int 40000) }) })
    delay_after_parent_application := (.int 650) })

/-- class_skills/melee/sam.py:34-47 `__get_fuka_follow_up` -/
def get_fuka_follow_up (_env : Env) : Py PyVal := do
  let name : PyVal := (.str "Fuka")
  return (← newFollowUp {
    skill := (← newSkill {
      name := name
      is_GCD := (.bool false)
      buff_spec := (← newStatusEffectSpec {
        haste_time_reduction := (.float (13 / 100))
        auto_attack_delay_reduction := (.float (13 / 100))
        duration := (.int 40000) }) })
    delay_after_parent_application := (.int 0) })

/-- class_skills/melee/sam.py:49-59 `auto` -/
def auto (_env : Env) : Py PyVal := do
  let name : PyVal := (.str "Auto")
  return (← newSkill {
    name := name
    is_GCD := (.bool false)
    timing_spec := (← autoTimingSpec)
    damage_spec := (← newDamageSpec {
      potency := (.int 90)
      damage_class := (.damageClass .auto)
      trait_damage_mult_override := (.int 1) }) })

/-- class_skills/melee/sam.py:61-74 `hakaze` -/
def hakaze (env : Env) : Py PyVal := do
  if decide (env.level ≥ 92) then
    return .none
  let name : PyVal := (.str "Hakaze")
  return (← newSkill {
    name := name
    is_GCD := (.bool true)
    combo_spec := (.tuple [(← newComboSpec {})])
    damage_spec := (← newDamageSpec { potency := (← getPotency table env name) })
    timing_spec := (← newTimingSpec {
      base_cast_time := (.int 0)
      animation_lock := (.int 650)
      application_delay := (.int 620) }) })

/-- class_skills/melee/sam.py:76-89 `gyofu` -/
def gyofu (env : Env) : Py PyVal := do
  if decide (env.level < 92) then
    return .none
  let name : PyVal := (.str "Gyofu")
  return (← newSkill {
    name := name
    is_GCD := (.bool true)
    combo_spec := (.tuple [(← newComboSpec {})])
    damage_spec := (← newDamageSpec { potency := (← getPotency table env name) })
    timing_spec := (← newTimingSpec {
      base_cast_time := (.int 0)
      animation_lock := (.int 650)
      application_delay := (.int 850) }) })

/-- class_skills/melee/sam.py:91-148 `jinpu` -/
def jinpu (env : Env) : Py PyVal := do
  let name : PyVal := (.str "Jinpu")
  let jinpu_follow_up : PyVal := (← newFollowUp {
    skill := (← newSkill {
      name := name
      damage_spec := (← newDamageSpec { potency := (← getPotency table env name) }) })
    delay_after_parent_application := (.int 620) })
  let jinpu_no_combo_follow_up : PyVal := (← newFollowUp {
    skill := (← newSkill {
      name := name
      damage_spec := (← newDamageSpec { potency := (← getPotencyNoCombo table env name) }) })
    delay_after_parent_application := (.int 620) })
  return (← newSkill {
    name := name
    is_GCD := (.bool true)
    ignored_conditions_for_bonus_potency := (.tuple [(.str "Meikyo Shisui")])
    combo_spec := (mkDict [
      ((.str SimConsts.DEFAULT_CONDITION), (.tuple [
        (← newComboSpec {
          combo_actions := (← getSkillData table env name (.str "combo_actions")) })])),
      ((.str "No Combo"), (.tuple [
        (← newComboSpec {
          combo_actions := (← getSkillData table env name (.str "combo_actions")) })])),
      ((.str "Meikyo Shisui"), (.tuple [
        (← newComboSpec {
          combo_auto_succeed := (.bool true)
          combo_actions := (← getSkillData table env name (.str "combo_actions")) })]))])
    timing_spec := (← newTimingSpec {
      base_cast_time := (.int 0)
      animation_lock := (.int 650)
      application_delay := (.int 0) })
    follow_up_skills := (mkDict [
      ((.str SimConsts.DEFAULT_CONDITION), (.tuple [jinpu_follow_up, (← get_fugetsu_follow_up env)])),
      ((.str "No Combo"), (.tuple [jinpu_no_combo_follow_up]))]) })

/-- class_skills/melee/sam.py:150-167 `enpi` -/
def enpi (env : Env) : Py PyVal := do
  let name : PyVal := (.str "Enpi")
  return (← newSkill {
    name := name
    is_GCD := (.bool true)
    damage_spec := (mkDict [
      ((.str SimConsts.DEFAULT_CONDITION), (← newDamageSpec { potency := (← getPotency table env name) })),
      ((.str "Enhanced Enpi"), (← newDamageSpec { potency := (← getSkillData table env name (.str "potency_enhanced")) }))])
    timing_spec := (← newTimingSpec {
      base_cast_time := (.int 0)
      animation_lock := (.int 650)
      application_delay := (.int 710) }) })

/-- class_skills/melee/sam.py:169-193 `hissatsu_yaten` -/
def hissatsu_yaten (env : Env) : Py PyVal := do
  let enhanced_enpi_follow_up : PyVal := (← newFollowUp {
    skill := (← newSkill {
      name := (.str "Enhanced Enpi")
      buff_spec := (← newStatusEffectSpec {
        add_to_skill_modifier_condition := (.bool true)
        num_uses := (.int 1)
        duration := (← PyVal.mul (.int 15) (.int 1000))
        skill_allowlist := (.tuple [(.str "Enpi")]) }) })
    delay_after_parent_application := (.int 0) })
  let name : PyVal := (.str "Hissatsu: Yaten")
  return (← newSkill {
    name := name
    is_GCD := (.bool false)
    damage_spec := (← newDamageSpec { potency := (← getPotency table env name) })
    timing_spec := (← newTimingSpec {
      base_cast_time := (.int 0)
      animation_lock := (.int 650)
      application_delay := (.int 450) })
    follow_up_skills := (.tuple [enhanced_enpi_follow_up]) })

/-- class_skills/melee/sam.py:195-252 `shifu` -/
def shifu (env : Env) : Py PyVal := do
  let name : PyVal := (.str "Shifu")
  let shifu_follow_up : PyVal := (← newFollowUp {
    skill := (← newSkill {
      name := name
      damage_spec := (← newDamageSpec { potency := (← getPotency table env name) }) })
    delay_after_parent_application := (.int 800) })
  let shifu_no_combo_follow_up : PyVal := (← newFollowUp {
    skill := (← newSkill {
      name := name
      damage_spec := (← newDamageSpec { potency := (← getPotencyNoCombo table env name) }) })
    delay_after_parent_application := (.int 800) })
  return (← newSkill {
    name := name
    is_GCD := (.bool true)
    ignored_conditions_for_bonus_potency := (.tuple [(.str "Meikyo Shisui")])
    combo_spec := (mkDict [
      ((.str SimConsts.DEFAULT_CONDITION), (.tuple [
        (← newComboSpec {
          combo_actions := (← getSkillData table env name (.str "combo_actions")) })])),
      ((.str "No Combo"), (.tuple [
        (← newComboSpec {
          combo_actions := (← getSkillData table env name (.str "combo_actions")) })])),
      ((.str "Meikyo Shisui"), (.tuple [
        (← newComboSpec {
          combo_auto_succeed := (.bool true)
          combo_actions := (← getSkillData table env name (.str "combo_actions")) })]))])
    timing_spec := (← newTimingSpec {
      base_cast_time := (.int 0)
      animation_lock := (.int 650)
      application_delay := (.int 0) })
    follow_up_skills := (mkDict [
      ((.str SimConsts.DEFAULT_CONDITION), (.tuple [shifu_follow_up, (← get_fuka_follow_up env)])),
      ((.str "No Combo"), (.tuple [shifu_no_combo_follow_up]))]) })

/-- class_skills/melee/sam.py:254-328 `gekko` -/
def gekko (env : Env) : Py PyVal := do
  let name : PyVal := (.str "Gekko")
  let gekko_follow_up : PyVal := (← newFollowUp {
    skill := (← newSkill {
      name := name
      damage_spec := (← newDamageSpec { potency := (← getPotency table env name) }) })
    delay_after_parent_application := (.int 760) })
  let gekko_no_combo_follow_up : PyVal := (← newFollowUp {
    skill := (← newSkill {
      name := name
      damage_spec := (← newDamageSpec { potency := (← getPotencyNoCombo table env name) }) })
    delay_after_parent_application := (.int 760) })
  let gekko_no_pos_follow_up : PyVal := (← newFollowUp {
    skill := (← newSkill {
      name := name
      damage_spec := (← newDamageSpec { potency := (← getPotencyNoPositional table env name) }) })
    delay_after_parent_application := (.int 760) })
  let gekko_no_pos_no_combo_follow_up : PyVal := (← newFollowUp {
    skill := (← newSkill {
      name := name
      damage_spec := (← newDamageSpec {
        potency := (← getSkillData table env name (.str "potency_no_pos_no_combo")) }) })
    delay_after_parent_application := (.int 760) })
  let fugetsu_follow_up : PyVal := (← get_fugetsu_follow_up env)
  return (← newSkill {
    name := name
    is_GCD := (.bool true)
    ignored_conditions_for_bonus_potency := (.tuple [(.str "Meikyo Shisui")])
    combo_spec := (mkDict [
      ((.str SimConsts.DEFAULT_CONDITION), (.tuple [(← newComboSpec { combo_actions := (.tuple [(.str "Jinpu")]) })])),
      ((.str "No Combo"), (.tuple [(← newComboSpec { combo_actions := (.tuple [(.str "Jinpu")]) })])),
      ((.str "No Positional"), (.tuple [(← newComboSpec { combo_actions := (.tuple [(.str "Jinpu")]) })])),
      ((.str "Meikyo Shisui"), (.tuple [
        (← newComboSpec {
          combo_auto_succeed := (.bool true)
          combo_actions := (.tuple [(.str "Jinpu")]) })])),
      ((.str "No Positional, Meikyo Shisui"), (.tuple [
        (← newComboSpec {
          combo_auto_succeed := (.bool true)
          combo_actions := (.tuple [(.str "Jinpu")]) })]))])
    timing_spec := (← newTimingSpec {
      base_cast_time := (.int 0)
      animation_lock := (.int 650)
      application_delay := (.int 0) })
    follow_up_skills := (mkDict [
      ((.str SimConsts.DEFAULT_CONDITION), (.tuple [gekko_follow_up])),
      ((.str "No Combo, No Positional"), (.tuple [gekko_no_pos_no_combo_follow_up])),
      ((.str "No Combo"), (.tuple [gekko_no_combo_follow_up])),
      ((.str "No Positional"), (.tuple [gekko_no_pos_follow_up])),
      ((.str "Meikyo Shisui"), (.tuple [gekko_follow_up, fugetsu_follow_up])),
      ((.str "Meikyo Shisui, No Combo, No Positional"), (.tuple [gekko_no_pos_follow_up, fugetsu_follow_up])),
      ((.str "Meikyo Shisui, No Combo"), (.tuple [gekko_follow_up, fugetsu_follow_up])),
      ((.str "Meikyo Shisui, No Positional"), (.tuple [gekko_no_pos_follow_up, fugetsu_follow_up]))]) })

/-- class_skills/melee/sam.py:330-337 `__get_iaijutsu_timing` -/
def get_iaijutsu_timing (_env : Env) : Py PyVal := do
  return (← newTimingSpec {
    base_cast_time := (.int 1300)
    affected_by_speed_stat := (.bool false)
    affected_by_haste_buffs := (.bool false)
    animation_lock := (.int 0)
    application_delay := (.int 620) })

/-- class_skills/melee/sam.py:339-354 `__get_higanbana_follow_up` -/
def get_higanbana_follow_up (env : Env) : Py PyVal := do
  let name : PyVal := (.str "Higanbana (dot)")
  return (← newFollowUp {
    skill := (← newSkill {
      name := name
      is_GCD := (.bool false)
      damage_spec := (← newDamageSpec {
        potency := (← getPotency table env name)
        damage_class := (.damageClass .physicalDot) }) })
    delay_after_parent_application := (.int 0)
    dot_duration := (← PyVal.mul (.int 60) (.int 1000))
    snapshot_buffs_with_parent := (.bool true)
    snapshot_debuffs_with_parent := (.bool true) })

/-- class_skills/melee/sam.py:356-365 `higanbana` -/
def higanbana (env : Env) : Py PyVal := do
  let name : PyVal := (.str "Higanbana")
  return (← newSkill {
    name := name
    is_GCD := (.bool true)
    damage_spec := (← newDamageSpec { potency := (← getPotency table env name) })
    timing_spec := (← get_iaijutsu_timing env)
    follow_up_skills := (.tuple [(← get_higanbana_follow_up env)]) })

/-- class_skills/melee/sam.py:367-375 `tenka_goken` -/
def tenka_goken (env : Env) : Py PyVal := do
  let name : PyVal := (.str "Tenka Goken")
  return (← newSkill {
    name := name
    is_GCD := (.bool true)
    damage_spec := (← newDamageSpec { potency := (← getPotency table env name) })
    timing_spec := (← get_iaijutsu_timing env) })

/-- class_skills/melee/sam.py:377-388 `midare_setsugekka` -/
def midare_setsugekka (env : Env) : Py PyVal := do
  let name : PyVal := (.str "Midare Setsugekka")
  return (← newSkill {
    name := name
    is_GCD := (.bool true)
    damage_spec := (← newDamageSpec {
      potency := (← getPotency table env name)
      guaranteed_crit := (.forced .forceYes) })
    timing_spec := (← get_iaijutsu_timing env) })

/-- class_skills/melee/sam.py:390-401 `kaeshi_higanbana` -/
def kaeshi_higanbana (env : Env) : Py PyVal := do
  if env.gt .p655 then
    return .none
  let name : PyVal := (.str "Kaeshi: Higanbana")
  return (← newSkill {
    name := name
    is_GCD := (.bool true)
    damage_spec := (← newDamageSpec { potency := (← getPotency table env name) })
    timing_spec := (← instantTimingSpec)
    follow_up_skills := (.tuple [(← get_higanbana_follow_up env)]) })

/-- class_skills/melee/sam.py:403-413 `kaeshi_goken` -/
def kaeshi_goken (env : Env) : Py PyVal := do
  let name : PyVal := (.str "Kaeshi: Goken")
  return (← newSkill {
    name := name
    is_GCD := (.bool true)
    damage_spec := (← newDamageSpec { potency := (← getPotency table env name) })
    timing_spec := (← newTimingSpec {
      base_cast_time := (.int 0)
      animation_lock := (.int 650)
      application_delay := (.int 620) }) })

/-- class_skills/melee/sam.py:415-428 `kaeshi_setsugekka` -/
def kaeshi_setsugekka (env : Env) : Py PyVal := do
  let name : PyVal := (.str "Kaeshi: Setsugekka")
  return (← newSkill {
    name := name
    is_GCD := (.bool true)
    damage_spec := (← newDamageSpec {
      potency := (← getPotency table env name)
      guaranteed_crit := (.forced .forceYes) })
    timing_spec := (← newTimingSpec {
      base_cast_time := (.int 0)
      animation_lock := (.int 650)
      application_delay := (.int 620) }) })

/-- class_skills/melee/sam.py:430-475 `mangetsu` -/
def mangetsu (env : Env) : Py PyVal := do
  let name : PyVal := (.str "Mangetsu")
  let magnetsu_follow_up : PyVal := (← newFollowUp {
    skill := (← newSkill {
      name := name
      damage_spec := (← newDamageSpec { potency := (← getPotency table env name) })
      has_aoe := (.bool true) })
    delay_after_parent_application := (.int 620)
    primary_target_only := (.bool false) })
  let magnetsu_no_combo_follow_up : PyVal := (← newFollowUp {
    skill := (← newSkill {
      name := name
      damage_spec := (← newDamageSpec { potency := (← getPotencyNoCombo table env name) })
      has_aoe := (.bool true) })
    delay_after_parent_application := (.int 620)
    primary_target_only := (.bool false) })
  return (← newSkill {
    name := name
    is_GCD := (.bool true)
    ignored_conditions_for_bonus_potency := (.tuple [(.str "Meikyo Shisui")])
    combo_spec := (mkDict [
      ((.str SimConsts.DEFAULT_CONDITION), (.tuple [(← newComboSpec { combo_actions := (.tuple [(.str "Fuko")]) })])),
      ((.str "No Combo"), (.tuple [(← newComboSpec { combo_actions := (.tuple [(.str "Fuko")]) })])),
      ((.str "Meikyo Shisui"), (.tuple [
        (← newComboSpec {
          combo_auto_succeed := (.bool true)
          combo_actions := (.tuple [(.str "Fuko")]) })]))])
    timing_spec := (← newTimingSpec {
      base_cast_time := (.int 0)
      animation_lock := (.int 650)
      application_delay := (.int 0) })
    follow_up_skills := (mkDict [
      ((.str SimConsts.DEFAULT_CONDITION), (.tuple [magnetsu_follow_up, (← get_fugetsu_follow_up env)])),
      ((.str "No Combo"), (.tuple [magnetsu_no_combo_follow_up]))])
    has_aoe := (.bool true) })

/-- class_skills/melee/sam.py:477-551 `kasha` -/
def kasha (env : Env) : Py PyVal := do
  let name : PyVal := (.str "Kasha")
  let kasha_follow_up : PyVal := (← newFollowUp {
    skill := (← newSkill {
      name := name
      damage_spec := (← newDamageSpec { potency := (← getPotency table env name) }) })
    delay_after_parent_application := (.int 620) })
  let kasha_no_combo_follow_up : PyVal := (← newFollowUp {
    skill := (← newSkill {
      name := name
      damage_spec := (← newDamageSpec { potency := (← getPotencyNoCombo table env name) }) })
    delay_after_parent_application := (.int 620) })
  let kasha_no_pos_follow_up : PyVal := (← newFollowUp {
    skill := (← newSkill {
      name := name
      damage_spec := (← newDamageSpec { potency := (← getPotencyNoPositional table env name) }) })
    delay_after_parent_application := (.int 620) })
  let kasha_no_pos_no_combo_follow_up : PyVal := (← newFollowUp {
    skill := (← newSkill {
      name := name
      damage_spec := (← newDamageSpec {
        potency := (← getSkillData table env name (.str "potency_no_pos_no_combo")) }) })
    delay_after_parent_application := (.int 620) })
  let fuka_follow_up : PyVal := (← get_fuka_follow_up env)
  return (← newSkill {
    name := name
    is_GCD := (.bool true)
    ignored_conditions_for_bonus_potency := (.tuple [(.str "Meikyo Shisui")])
    combo_spec := (mkDict [
      ((.str SimConsts.DEFAULT_CONDITION), (.tuple [(← newComboSpec { combo_actions := (.tuple [(.str "Shifu")]) })])),
      ((.str "No Combo"), (.tuple [(← newComboSpec { combo_actions := (.tuple [(.str "Shifu")]) })])),
      ((.str "No Positional"), (.tuple [(← newComboSpec { combo_actions := (.tuple [(.str "Shifu")]) })])),
      ((.str "Meikyo Shisui"), (.tuple [
        (← newComboSpec {
          combo_auto_succeed := (.bool true)
          combo_actions := (.tuple [(.str "Shifu")]) })])),
      ((.str "No Positional, Meikyo Shisui"), (.tuple [
        (← newComboSpec {
          combo_auto_succeed := (.bool true)
          combo_actions := (.tuple [(.str "Shifu")]) })]))])
    timing_spec := (← newTimingSpec {
      base_cast_time := (.int 0)
      animation_lock := (.int 650)
      application_delay := (.int 0) })
    follow_up_skills := (mkDict [
      ((.str SimConsts.DEFAULT_CONDITION), (.tuple [kasha_follow_up])),
      ((.str "No Combo, No Positional"), (.tuple [kasha_no_pos_no_combo_follow_up])),
      ((.str "No Combo"), (.tuple [kasha_no_combo_follow_up])),
      ((.str "No Positional"), (.tuple [kasha_no_pos_follow_up])),
      ((.str "Meikyo Shisui"), (.tuple [kasha_follow_up, fuka_follow_up])),
      ((.str "Meikyo Shisui, No Combo, No Positional"), (.tuple [kasha_no_pos_follow_up, fuka_follow_up])),
      ((.str "Meikyo Shisui, No Combo"), (.tuple [kasha_follow_up, fuka_follow_up])),
      ((.str "Meikyo Shisui, No Positional"), (.tuple [kasha_no_pos_follow_up, fuka_follow_up]))]) })

/-- class_skills/melee/sam.py:553-598 `oka` -/
def oka (env : Env) : Py PyVal := do
  let name : PyVal := (.str "Oka")
  let oka_follow_up : PyVal := (← newFollowUp {
    skill := (← newSkill {
      name := name
      damage_spec := (← newDamageSpec { potency := (← getPotency table env name) })
      has_aoe := (.bool true) })
    delay_after_parent_application := (.int 620)
    primary_target_only := (.bool false) })
  let oka_no_combo_follow_up : PyVal := (← newFollowUp {
    skill := (← newSkill {
      name := name
      damage_spec := (← newDamageSpec { potency := (← getPotencyNoCombo table env name) })
      has_aoe := (.bool true) })
    delay_after_parent_application := (.int 620)
    primary_target_only := (.bool false) })
  return (← newSkill {
    name := name
    is_GCD := (.bool true)
    ignored_conditions_for_bonus_potency := (.tuple [(.str "Meikyo Shisui")])
    combo_spec := (mkDict [
      ((.str SimConsts.DEFAULT_CONDITION), (.tuple [(← newComboSpec { combo_actions := (.tuple [(.str "Fuko")]) })])),
      ((.str "No Combo"), (.tuple [(← newComboSpec { combo_actions := (.tuple [(.str "Fuko")]) })])),
      ((.str "Meikyo Shisui"), (.tuple [
        (← newComboSpec {
          combo_auto_succeed := (.bool true)
          combo_actions := (.tuple [(.str "Fuko")]) })]))])
    timing_spec := (← newTimingSpec {
      base_cast_time := (.int 0)
      animation_lock := (.int 650)
      application_delay := (.int 0) })
    follow_up_skills := (mkDict [
      ((.str SimConsts.DEFAULT_CONDITION), (.tuple [oka_follow_up, (← get_fuka_follow_up env)])),
      ((.str "No Combo"), (.tuple [oka_no_combo_follow_up]))])
    has_aoe := (.bool true) })

/-- class_skills/melee/sam.py:600-641 `yukikaze` -/
def yukikaze (env : Env) : Py PyVal := do
  let name : PyVal := (.str "Yukikaze")
  return (← newSkill {
    name := name
    is_GCD := (.bool true)
    combo_spec := (mkDict [
      ((.str SimConsts.DEFAULT_CONDITION), (.tuple [
        (← newComboSpec {
          combo_actions := (← getSkillData table env name (.str "combo_actions")) })])),
      ((.str "Meikyo Shisui"), (.tuple [
        (← newComboSpec {
          combo_auto_succeed := (.bool true)
          combo_actions := (← getSkillData table env name (.str "combo_actions")) })])),
      ((.str "No Combo"), (.tuple [
        (← newComboSpec {
          combo_actions := (← getSkillData table env name (.str "combo_actions")) })]))])
    damage_spec := (mkDict [
      ((.str SimConsts.DEFAULT_CONDITION), (← newDamageSpec { potency := (← getPotency table env name) })),
      ((.str "No Combo"), (← newDamageSpec { potency := (← getPotencyNoCombo table env name) }))])
    timing_spec := (← newTimingSpec {
      base_cast_time := (.int 0)
      animation_lock := (.int 650)
      application_delay := (.int 800) }) })

/-- class_skills/melee/sam.py:643-653 `hissatsu_shinten` -/
def hissatsu_shinten (env : Env) : Py PyVal := do
  let name : PyVal := (.str "Hissatsu: Shinten")
  return (← newSkill {
    name := name
    is_GCD := (.bool false)
    damage_spec := (← newDamageSpec { potency := (← getPotency table env name) })
    timing_spec := (← newTimingSpec {
      base_cast_time := (.int 0)
      animation_lock := (.int 650)
      application_delay := (.int 620) }) })

/-- class_skills/melee/sam.py:655-665 `hissatsu_gyoten` -/
def hissatsu_gyoten (env : Env) : Py PyVal := do
  let name : PyVal := (.str "Hissatsu: Gyoten")
  return (← newSkill {
    name := name
    is_GCD := (.bool false)
    damage_spec := (← newDamageSpec { potency := (← getPotency table env name) })
    timing_spec := (← newTimingSpec {
      base_cast_time := (.int 0)
      animation_lock := (.int 650)
      application_delay := (.int 490) }) })

/-- class_skills/melee/sam.py:667-678 `hissatsu_kyuten` -/
def hissatsu_kyuten (env : Env) : Py PyVal := do
  let name : PyVal := (.str "Hissatsu: Kyuten")
  return (← newSkill {
    name := name
    is_GCD := (.bool false)
    damage_spec := (← newDamageSpec { potency := (← getPotency table env name) })
    timing_spec := (← newTimingSpec {
      base_cast_time := (.int 0)
      animation_lock := (.int 650)
      application_delay := (.int 620) })
    has_aoe := (.bool true) })

/-- class_skills/melee/sam.py:680-692 `hissatsu_guren` -/
def hissatsu_guren (env : Env) : Py PyVal := do
  let name : PyVal := (.str "Hissatsu: Guren")
  return (← newSkill {
    name := name
    is_GCD := (.bool false)
    damage_spec := (← newDamageSpec { potency := (← getPotency table env name) })
    timing_spec := (← newTimingSpec {
      base_cast_time := (.int 0)
      animation_lock := (.int 650)
      application_delay := (.int 620) })
    has_aoe := (.bool true)
    aoe_dropoff := (.float (25 / 100)) })

/-- class_skills/melee/sam.py:694-704 `hissatsu_senei` -/
def hissatsu_senei (env : Env) : Py PyVal := do
  let name : PyVal := (.str "Hissatsu: Senei")
  return (← newSkill {
    name := name
    is_GCD := (.bool false)
    damage_spec := (← newDamageSpec { potency := (← getPotency table env name) })
    timing_spec := (← newTimingSpec {
      base_cast_time := (.int 0)
      animation_lock := (.int 650)
      application_delay := (.int 670) }) })

/-- class_skills/melee/sam.py:706-718 `shoha` -/
def shoha (env : Env) : Py PyVal := do
  let name : PyVal := (.str "Shoha")
  return (← newSkill {
    name := name
    is_GCD := (.bool false)
    damage_spec := (← newDamageSpec { potency := (← getPotency table env name) })
    timing_spec := (← newTimingSpec {
      base_cast_time := (.int 0)
      animation_lock := (.int 650)
      application_delay := (.int 580) })
    has_aoe := (.bool true)
    aoe_dropoff := (.float (65 / 100)) })

/-- class_skills/melee/sam.py:720-732 `shoha_ii` -/
def shoha_ii (env : Env) : Py PyVal := do
  if env.gt .p655 then
    return .none
  let name : PyVal := (.str "Shoha II")
  return (← newSkill {
    name := name
    is_GCD := (.bool false)
    damage_spec := (← newDamageSpec { potency := (← getPotency table env name) })
    timing_spec := (← newTimingSpec {
      base_cast_time := (.int 0)
      animation_lock := (.int 650)
      application_delay := (.int 580) }) })

/-- class_skills/melee/sam.py:734-746 `fuko` -/
def fuko (env : Env) : Py PyVal := do
  let name : PyVal := (.str "Fuko")
  return (← newSkill {
    name := name
    is_GCD := (.bool true)
    combo_spec := (.tuple [(← newComboSpec {})])
    damage_spec := (← newDamageSpec { potency := (← getPotency table env name) })
    timing_spec := (← newTimingSpec {
      base_cast_time := (.int 0)
      animation_lock := (.int 650)
      application_delay := (.int 760) })
    has_aoe := (.bool true) })

/-- class_skills/melee/sam.py:748-766 `ogi_namikiri` -/
def ogi_namikiri (env : Env) : Py PyVal := do
  let name : PyVal := (.str "Ogi Namikiri")
  return (← newSkill {
    name := name
    is_GCD := (.bool true)
    damage_spec := (← newDamageSpec {
      potency := (← getPotency table env name)
      guaranteed_crit := (.forced .forceYes) })
    timing_spec := (← newTimingSpec {
      base_cast_time := (.int 1300)
      affected_by_speed_stat := (.bool false)
      affected_by_haste_buffs := (.bool false)
      application_delay := (.int 490) })
    has_aoe := (.bool true)
    aoe_dropoff := (.float (75 / 100)) })

/-- class_skills/melee/sam.py:768-783 `kaeshi_namikiri` -/
def kaeshi_namikiri (env : Env) : Py PyVal := do
  let name : PyVal := (.str "Kaeshi: Namikiri")
  return (← newSkill {
    name := name
    is_GCD := (.bool true)
    damage_spec := (← newDamageSpec {
      potency := (← getPotency table env name)
      guaranteed_crit := (.forced .forceYes) })
    timing_spec := (← newTimingSpec {
      base_cast_time := (.int 0)
      animation_lock := (.int 650)
      application_delay := (.int 490) })
    has_aoe := (.bool true)
    aoe_dropoff := (.float (75 / 100)) })

/-- class_skills/melee/sam.py:785-799 `zanshin` -/
def zanshin (env : Env) : Py PyVal := do
  if decide (env.level < 96) then
    return .none
  let name : PyVal := (.str "Zanshin")
  return (← newSkill {
    name := name
    is_GCD := (.bool false)
    damage_spec := (← newDamageSpec { potency := (← getPotency table env name) })
    timing_spec := (← newTimingSpec {
      base_cast_time := (.int 0)
      animation_lock := (.int 650)
      application_delay := (.int 1030) })
    has_aoe := (.bool true)
    aoe_dropoff := (.float (6 / 10)) })

/-- class_skills/melee/sam.py:801-813 `tendo_goken` -/
def tendo_goken (env : Env) : Py PyVal := do
  if decide (env.level < 100) then
    return .none
  let name : PyVal := (.str "Tendo Goken")
  return (← newSkill {
    name := name
    is_GCD := (.bool true)
    damage_spec := (← newDamageSpec { potency := (← getPotency table env name) })
    timing_spec := (← newTimingSpec {
      base_cast_time := (.int 1300)
      animation_lock := (.int 650)
      application_delay := (.int 360) }) })

/-- class_skills/melee/sam.py:815-835 `tendo_setsugekka` -/
def tendo_setsugekka (env : Env) : Py PyVal := do
  if decide (env.level < 100) then
    return .none
  let name : PyVal := (.str "Tendo Setsugekka")
  return (← newSkill {
    name := name
    is_GCD := (.bool true)
    damage_spec := (← newDamageSpec {
      potency := (← getPotency table env name)
      guaranteed_crit := (.forced .forceYes) })
    timing_spec := (← newTimingSpec {
      base_cast_time := (.int 1300)
      animation_lock := (.int 650)
      application_delay := (.int 1030)
      gcd_base_recast_time := (← getSkillData table env name (.str "gcd_base_recast_time")) }) })

/-- class_skills/melee/sam.py:837-849 `tendo_kaeshi_goken` -/
def tendo_kaeshi_goken (env : Env) : Py PyVal := do
  if decide (env.level < 100) then
    return .none
  let name : PyVal := (.str "Tendo Kaeshi Goken")
  return (← newSkill {
    name := name
    is_GCD := (.bool true)
    damage_spec := (← newDamageSpec { potency := (← getPotency table env name) })
    timing_spec := (← newTimingSpec {
      base_cast_time := (.int 0)
      animation_lock := (.int 650)
      application_delay := (.int 360) }) })

/-- class_skills/melee/sam.py:851-871 `tendo_kaeshi_setsugekka` -/
def tendo_kaeshi_setsugekka (env : Env) : Py PyVal := do
  if decide (env.level < 100) then
    return .none
  let name : PyVal := (.str "Tendo Kaeshi Setsugekka")
  return (← newSkill {
    name := name
    is_GCD := (.bool true)
    damage_spec := (← newDamageSpec {
      potency := (← getPotency table env name)
      guaranteed_crit := (.forced .forceYes) })
    timing_spec := (← newTimingSpec {
      base_cast_time := (.int 0)
      animation_lock := (.int 650)
      application_delay := (.int 1030)
      gcd_base_recast_time := (← getSkillData table env name (.str "gcd_base_recast_time")) }) })

/-- class_skills/melee/sam.py:873-896 `meikyo_shisui` -/
def meikyo_shisui (_env : Env) : Py PyVal := do
  let name : PyVal := (.str "Meikyo Shisui")
  return (← newSkill {
    name := name
    is_GCD := (.bool false)
    timing_spec := (← instantTimingSpec)
    buff_spec := (← newStatusEffectSpec {
      add_to_skill_modifier_condition := (.bool true)
      num_uses := (.int 3)
      duration := (← PyVal.toInt (← PyVal.mul (.float (151 / 10)) (.int 1000)))
      skill_allowlist := (.tuple [
        (.str "Hakaze"), (.str "Jinpu"), (.str "Shifu"), (.str "Gekko"), (.str "Mangetsu"),
        (.str "Kasha"), (.str "Oka"), (.str "Yukikaze"), (.str "Fuko")]) }) })

/-- class_skills/melee/sam.py:898-901 `true_north` -/
def true_north (_env : Env) : Py PyVal := do
  let name : PyVal := (.str "True North")
  return (← newSkill {
    name := name
    is_GCD := (.bool false)
    timing_spec := (← instantTimingSpec) })

/-- class_skills/melee/sam.py:903-906 `tengentsu` -/
def tengentsu (_env : Env) : Py PyVal := do
  let name : PyVal := (.str "Tengentsu")
  return (← newSkill {
    name := name
    is_GCD := (.bool false)
    timing_spec := (← instantTimingSpec) })

/-- class_skills/melee/sam.py:908-911 `hagakure` -/
def hagakure (_env : Env) : Py PyVal := do
  let name : PyVal := (.str "Hagakure")
  return (← newSkill {
    name := name
    is_GCD := (.bool false)
    timing_spec := (← instantTimingSpec) })

/-- class_skills/melee/sam.py:913-916 `ikishoten` -/
def ikishoten (_env : Env) : Py PyVal := do
  let name : PyVal := (.str "Ikishoten")
  return (← newSkill {
    name := name
    is_GCD := (.bool false)
    timing_spec := (← instantTimingSpec) })

/-- class_skills/melee/sam.py:17-916 `SamSkills`; the methods in the order of `dir`. -/
def job (env : Env) : JobClass where
  jobClass := "SAM"
  skillMethods := [
    auto env,
    enpi env,
    fuko env,
    gekko env,
    gyofu env,
    hagakure env,
    hakaze env,
    higanbana env,
    hissatsu_guren env,
    hissatsu_gyoten env,
    hissatsu_kyuten env,
    hissatsu_senei env,
    hissatsu_shinten env,
    hissatsu_yaten env,
    ikishoten env,
    jinpu env,
    kaeshi_goken env,
    kaeshi_higanbana env,
    kaeshi_namikiri env,
    kaeshi_setsugekka env,
    kasha env,
    mangetsu env,
    meikyo_shisui env,
    midare_setsugekka env,
    ogi_namikiri env,
    oka env,
    shifu env,
    shoha env,
    shoha_ii env,
    tendo_goken env,
    tendo_kaeshi_goken env,
    tendo_kaeshi_setsugekka env,
    tendo_setsugekka env,
    tengentsu env,
    tenka_goken env,
    true_north env,
    yukikaze env,
    zanshin env]

end Ama.GameData.Sam
