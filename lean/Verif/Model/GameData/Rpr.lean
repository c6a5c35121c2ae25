import Verif.Model.GameData.Values

/-!
# RPR

Model of `simulator/game_data/class_skills/melee/rpr.py` and `simulator/game_data/class_skills/melee/rpr_data.py`, written by
`tools/translate.py`: one function per method.  Paths in the comments are relative to
`simulator/game_data`.
-/

namespace Ama.GameData.Rpr

open PyVal

/-- class_skills/melee/rpr_data.py:7-119 `ALL_DATA` -/
def table : Table := [
  ("Enhanced Harpe", [
    (90, [
      ("duration", [(.p655, do return (← PyVal.toInt (← PyVal.mul (.int 20) (.int 1000))))])]),
    (100, [
      ("duration", [(.p70, do return (← PyVal.toInt (← PyVal.mul (.int 10) (.int 1000))))])])]),
  ("Slice", [
    (90, [("potency", [(.p655, .ok (.int 320))])]),
    (100, [("potency", [(.p70, .ok (.int 420))])])]),
  ("Waxing Slice", [
    (90, [
      ("potency", [(.p655, .ok (.int 400))]),
      ("potency_no_combo", [(.p655, .ok (.int 160))])]),
    (100, [
      ("potency", [(.p70, .ok (.int 500))]),
      ("potency_no_combo", [(.p70, .ok (.int 260))])])]),
  ("Shadow of Death", [
    (90, [("potency", [(.p655, .ok (.int 300))])]),
    (100, [("potency", [(.p70, .ok (.int 300))])])]),
  ("Harpe", [
    (90, [("potency", [(.p655, .ok (.int 300))])]),
    (100, [("potency", [(.p70, .ok (.int 300))])])]),
  ("Spinning Scythe", [
    (90, [("potency", [(.p655, .ok (.int 140))])]),
    (100, [("potency", [(.p70, .ok (.int 160))])])]),
  ("Infernal Slice", [
    (90, [
      ("potency", [(.p655, .ok (.int 500))]),
      ("potency_no_combo", [(.p655, .ok (.int 180))])]),
    (100, [
      ("potency", [(.p70, .ok (.int 600))]),
      ("potency_no_combo", [(.p70, .ok (.int 280))])])]),
  ("Whorl of Death", [
    (90, [("potency", [(.p655, .ok (.int 100))])]),
    (100, [("potency", [(.p70, .ok (.int 100))])])]),
  ("Nightmare Scythe", [
    (90, [
      ("potency", [(.p655, .ok (.int 180))]),
      ("potency_no_combo", [(.p655, .ok (.int 120))])]),
    (100, [
      ("potency", [(.p70, .ok (.int 200))]),
      ("potency_no_combo", [(.p70, .ok (.int 140))])])]),
  ("Blood Stalk", [
    (90, [("potency", [(.p655, .ok (.int 340))])]),
    (100, [("potency", [(.p70, .ok (.int 340))])])]),
  ("Grim Swathe", [
    (90, [("potency", [(.p655, .ok (.int 140))])]),
    (100, [("potency", [(.p70, .ok (.int 140))])])]),
  ("Soul Slice", [
    (90, [("potency", [(.p655, .ok (.int 460))])]),
    (100, [("potency", [(.p70, .ok (.int 460)), (.p705, .ok (.int 520))])])]),
  ("Soul Scythe", [
    (90, [("potency", [(.p655, .ok (.int 180))])]),
    (100, [("potency", [(.p70, .ok (.int 180))])])]),
  ("Enhanced Gibbet", [
    (90, [("allowlist", [(.p655, .ok (.tuple [(.str "Gibbet")]))])]),
    (100, [
      ("allowlist", [(.p70, .ok (.tuple [(.str "Gibbet"), (.str "Executioner's Gibbet")]))])])]),
  ("Enhanced Gallows", [
    (90, [("allowlist", [(.p655, .ok (.tuple [(.str "Gallows")]))])]),
    (100, [
      ("allowlist", [(.p70, .ok (.tuple [(.str "Gallows"), (.str "Executioner's Gallows")]))])])]),
  ("Gibbet", [
    (90, [
      ("potency", [(.p655, .ok (.int 460))]),
      ("potency_no_pos", [(.p655, .ok (.int 400))]),
      ("potency_gibbet", [(.p655, .ok (.int 520))]),
      ("potency_no_pos_gibbet", [(.p655, .ok (.int 460))])]),
    (100, [
      ("potency", [(.p70, .ok (.int 560))]),
      ("potency_no_pos", [(.p70, .ok (.int 500))]),
      ("potency_gibbet", [(.p70, .ok (.int 620))]),
      ("potency_no_pos_gibbet", [(.p70, .ok (.int 560))])])]),
  ("Gallows", [
    (90, [
      ("potency", [(.p655, .ok (.int 460))]),
      ("potency_no_pos", [(.p655, .ok (.int 400))]),
      ("potency_gallows", [(.p655, .ok (.int 520))]),
      ("potency_no_pos_gallows", [(.p655, .ok (.int 460))])]),
    (100, [
      ("potency", [(.p70, .ok (.int 560))]),
      ("potency_no_pos", [(.p70, .ok (.int 500))]),
      ("potency_gallows", [(.p70, .ok (.int 620))]),
      ("potency_no_pos_gallows", [(.p70, .ok (.int 560))])])]),
  ("Guillotine", [
    (90, [("potency", [(.p655, .ok (.int 200))])]),
    (100, [("potency", [(.p70, .ok (.int 200))])])]),
  ("Unveiled Gibbet", [
    (90, [("potency", [(.p655, .ok (.int 400))])]),
    (100, [("potency", [(.p70, .ok (.int 440))])])]),
  ("Unveiled Gallows", [
    (90, [("potency", [(.p655, .ok (.int 400))])]),
    (100, [("potency", [(.p70, .ok (.int 440))])])]),
  ("Arcane Circle", [
    (90, [
      ("duration", [
        (.p655, do return (← PyVal.toInt (← PyVal.mul (.float (1998 / 100)) (.int 1000))))])]),
    (100, [
      ("duration", [
        (.p70, do return (← PyVal.toInt (← PyVal.mul (.float (1998 / 100)) (.int 1000))))])])]),
  ("Gluttony", [
    (90, [("potency", [(.p655, .ok (.int 520))])]),
    (100, [("potency", [(.p70, .ok (.int 520))])])]),
  ("Void Reaping", [
    (90, [
      ("potency", [(.p655, .ok (.int 460))]),
      ("potency_enhanced", [(.p655, .ok (.int 520))])]),
    (100, [
      ("potency", [(.p70, .ok (.int 500))]),
      ("potency_enhanced", [(.p70, .ok (.int 560))])])]),
  ("Cross Reaping", [
    (90, [
      ("potency", [(.p655, .ok (.int 460))]),
      ("potency_enhanced", [(.p655, .ok (.int 520))])]),
    (100, [
      ("potency", [(.p70, .ok (.int 500))]),
      ("potency_enhanced", [(.p70, .ok (.int 560))])])]),
  ("Grim Reaping", [
    (90, [("potency", [(.p655, .ok (.int 200))])]),
    (100, [("potency", [(.p70, .ok (.int 200))])])]),
  ("Harvest Moon", [
    (90, [("potency", [(.p655, .ok (.int 600))])]),
    (100, [("potency", [(.p70, .ok (.int 800))])])]),
  ("Lemure's Slice", [
    (90, [("potency", [(.p655, .ok (.int 240))])]),
    (100, [("potency", [(.p70, .ok (.int 280))])])]),
  ("Lemure's Scythe", [
    (90, [("potency", [(.p655, .ok (.int 100))])]),
    (100, [("potency", [(.p70, .ok (.int 100))])])]),
  ("Plentiful Harvest", [
    (90, [
      ("base_potency", [(.p655, .ok (.int 720))]),
      ("potency_increment", [(.p655, .ok (.int 40))])]),
    (100, [
      ("base_potency", [(.p70, .ok (.int 720))]),
      ("potency_increment", [(.p70, .ok (.int 40))])])]),
  ("Communio", [
    (90, [("potency", [(.p655, .ok (.int 1100))])]),
    (100, [("potency", [(.p70, .ok (.int 1100))])])]),
  ("Sacrificium", [(100, [("potency", [(.p70, .ok (.int 530))])])]),
  ("Executioner's Gibbet", [
    (100, [
      ("potency", [(.p70, .ok (.int 760))]),
      ("potency_no_pos", [(.p70, .ok (.int 700))]),
      ("potency_enhanced", [(.p70, .ok (.int 820))]),
      ("potency_no_pos_enhanced", [(.p70, .ok (.int 760))])])]),
  ("Executioner's Gallows", [
    (100, [
      ("potency", [(.p70, .ok (.int 760))]),
      ("potency_no_pos", [(.p70, .ok (.int 700))]),
      ("potency_enhanced", [(.p70, .ok (.int 820))]),
      ("potency_no_pos_enhanced", [(.p70, .ok (.int 760))])])]),
  ("Executioner's Guillotine", [(100, [("potency", [(.p70, .ok (.int 300))])])]),
  ("Perfectio", [(100, [("potency", [(.p70, .ok (.int 1200)), (.p705, .ok (.int 1300))])])])]

/-- class_skills/melee/rpr.py:22-34 `__get_deaths_design_follow_up` -/
def get_deaths_design_follow_up (_env : Env) : Py PyVal := do
  let name : PyVal := (.str "Death's Design")
  return (← newFollowUp {
    skill := (← newSkill {
      name := name
      is_GCD := (.bool false)
      debuff_spec := (← newStatusEffectSpec {
        damage_mult := (.float (110 / 100))
        duration := (← PyVal.mul (.int 30) (.int 1000))
        max_duration := (← PyVal.mul (.int 60) (.int 1000)) }) })
    delay_after_parent_application := (.int 0)
    primary_target_only := (.bool false) })

/-- class_skills/melee/rpr.py:36-50 `__get_enhanced_harp_follow_up` -/
def get_enhanced_harp_follow_up (env : Env) : Py PyVal := do
  let name : PyVal := (.str "Enhanced Harpe")
  return (← newFollowUp {
    skill := (← newSkill {
      name := name
      is_GCD := (.bool false)
      buff_spec := (← newStatusEffectSpec {
        add_to_skill_modifier_condition := (.bool true)
        num_uses := (.int 1)
        duration := (← getSkillData table env name (.str "duration"))
        skill_allowlist := (.tuple [(.str "Harpe")]) }) })
    delay_after_parent_application := (.int 0) })

/-- class_skills/melee/rpr.py:52-62 `auto` -/
def auto (_env : Env) : Py PyVal := do
  let name : PyVal := (.str "Auto")
  return (← newSkill {
    name := name
    is_GCD := (.bool false)
    timing_spec := (← autoTimingSpec)
    damage_spec := (← newDamageSpec {
      potency := (.int 90)
      damage_class := (.damageClass .auto)
      trait_damage_mult_override := (.int 1) }) })

/-- class_skills/melee/rpr.py:64-75 `slice` -/
def slice (env : Env) : Py PyVal := do
  let name : PyVal := (.str "Slice")
  return (← newSkill {
    name := name
    is_GCD := (.bool true)
    combo_spec := (.tuple [(← newComboSpec {})])
    damage_spec := (← newDamageSpec { potency := (← getPotency table env name) })
    timing_spec := (← newTimingSpec {
      base_cast_time := (.int 0)
      animation_lock := (.int 650)
      application_delay := (.int 490) }) })

/-- class_skills/melee/rpr.py:77-95 `waxing_slice` -/
def waxing_slice (env : Env) : Py PyVal := do
  let name : PyVal := (.str "Waxing Slice")
  return (← newSkill {
    name := name
    is_GCD := (.bool true)
    combo_spec := (.tuple [(← newComboSpec { combo_actions := (.tuple [(.str "Slice")]) })])
    damage_spec := (mkDict [
      ((.str SimConsts.DEFAULT_CONDITION), (← newDamageSpec { potency := (← getPotency table env name) })),
      ((.str "No Combo"), (← newDamageSpec { potency := (← getPotencyNoCombo table env name) }))])
    timing_spec := (← newTimingSpec {
      base_cast_time := (.int 0)
      animation_lock := (.int 650)
      application_delay := (.int 580) }) })

/-- class_skills/melee/rpr.py:97-117 `shadow_of_death` -/
def shadow_of_death (env : Env) : Py PyVal := do
  let name : PyVal := (.str "Shadow of Death")
  let shadow_of_death_damage : PyVal := (← newFollowUp {
    skill := (← newSkill {
      name := name
      damage_spec := (← newDamageSpec { potency := (← getPotency table env name) }) })
    delay_after_parent_application := (.int 1160) })
  return (← newSkill {
    name := name
    is_GCD := (.bool true)
    timing_spec := (← newTimingSpec {
      base_cast_time := (.int 0)
      animation_lock := (.int 650)
      application_delay := (.int 0) })
    follow_up_skills := (.tuple [shadow_of_death_damage, (← get_deaths_design_follow_up env)]) })

/-- class_skills/melee/rpr.py:119-138 `harpe` -/
def harpe (env : Env) : Py PyVal := do
  let name : PyVal := (.str "Harpe")
  return (← newSkill {
    name := name
    is_GCD := (.bool true)
    damage_spec := (← newDamageSpec { potency := (← getPotency table env name) })
    timing_spec := (mkDict [
      ((.str SimConsts.DEFAULT_CONDITION), (← newTimingSpec {
        base_cast_time := (.int 1300)
        gcd_base_recast_time := (.int 2500)
        application_delay := (.int 890)
        affected_by_speed_stat := (.bool false) })),
      ((.str "Enhanced Harpe"), (← newTimingSpec {
        base_cast_time := (.int 0)
        animation_lock := (.int 650)
        application_delay := (.int 890) }))]) })

/-- class_skills/melee/rpr.py:140-152 `spinning_scythe` -/
def spinning_scythe (env : Env) : Py PyVal := do
  let name : PyVal := (.str "Spinning Scythe")
  return (← newSkill {
    name := name
    is_GCD := (.bool true)
    combo_spec := (.tuple [(← newComboSpec {})])
    damage_spec := (← newDamageSpec { potency := (← getPotency table env name) })
    timing_spec := (← newTimingSpec {
      base_cast_time := (.int 0)
      animation_lock := (.int 650)
      application_delay := (.int 620) })
    has_aoe := (.bool true) })

/-- class_skills/melee/rpr.py:154-172 `infernal_slice` -/
def infernal_slice (env : Env) : Py PyVal := do
  let name : PyVal := (.str "Infernal Slice")
  return (← newSkill {
    name := name
    is_GCD := (.bool true)
    combo_spec := (.tuple [(← newComboSpec { combo_actions := (.tuple [(.str "Waxing Slice")]) })])
    damage_spec := (mkDict [
      ((.str SimConsts.DEFAULT_CONDITION), (← newDamageSpec { potency := (← getPotency table env name) })),
      ((.str "No Combo"), (← newDamageSpec { potency := (← getPotencyNoCombo table env name) }))])
    timing_spec := (← newTimingSpec {
      base_cast_time := (.int 0)
      animation_lock := (.int 650)
      application_delay := (.int 540) }) })

/-- class_skills/melee/rpr.py:174-197 `whorl_of_death` -/
def whorl_of_death (env : Env) : Py PyVal := do
  let name : PyVal := (.str "Whorl of Death")
  let whorl_of_death_damage : PyVal := (← newFollowUp {
    skill := (← newSkill {
      name := name
      damage_spec := (← newDamageSpec { potency := (← getPotency table env name) })
      has_aoe := (.bool true) })
    delay_after_parent_application := (.int 1160)
    primary_target_only := (.bool false) })
  return (← newSkill {
    name := name
    is_GCD := (.bool true)
    timing_spec := (← newTimingSpec {
      base_cast_time := (.int 0)
      animation_lock := (.int 650)
      application_delay := (.int 0) })
    follow_up_skills := (.tuple [whorl_of_death_damage, (← get_deaths_design_follow_up env)])
    has_aoe := (.bool true) })

/-- class_skills/melee/rpr.py:199-218 `nightmare_scythe` -/
def nightmare_scythe (env : Env) : Py PyVal := do
  let name : PyVal := (.str "Nightmare Scythe")
  return (← newSkill {
    name := name
    is_GCD := (.bool true)
    combo_spec := (.tuple [(← newComboSpec { combo_actions := (.tuple [(.str "Spinning Scythe")]) })])
    damage_spec := (mkDict [
      ((.str SimConsts.DEFAULT_CONDITION), (← newDamageSpec { potency := (← getPotency table env name) })),
      ((.str "No Combo"), (← newDamageSpec { potency := (← getPotencyNoCombo table env name) }))])
    timing_spec := (← newTimingSpec {
      base_cast_time := (.int 0)
      animation_lock := (.int 650)
      application_delay := (.int 800) })
    has_aoe := (.bool true) })

/-- class_skills/melee/rpr.py:220-230 `blood_stalk` -/
def blood_stalk (env : Env) : Py PyVal := do
  let name : PyVal := (.str "Blood Stalk")
  return (← newSkill {
    name := name
    is_GCD := (.bool false)
    damage_spec := (← newDamageSpec { potency := (← getPotency table env name) })
    timing_spec := (← newTimingSpec {
      base_cast_time := (.int 0)
      animation_lock := (.int 650)
      application_delay := (.int 890) }) })

/-- class_skills/melee/rpr.py:232-243 `grim_swathe` -/
def grim_swathe (env : Env) : Py PyVal := do
  let name : PyVal := (.str "Grim Swathe")
  return (← newSkill {
    name := name
    is_GCD := (.bool false)
    damage_spec := (← newDamageSpec { potency := (← getPotency table env name) })
    timing_spec := (← newTimingSpec {
      base_cast_time := (.int 0)
      animation_lock := (.int 650)
      application_delay := (.int 580) })
    has_aoe := (.bool true) })

/-- class_skills/melee/rpr.py:245-259 `soul_slice` -/
def soul_slice (env : Env) : Py PyVal := do
  let name : PyVal := (.str "Soul Slice")
  return (← newSkill {
    name := name
    is_GCD := (.bool true)
    damage_spec := (← newDamageSpec { potency := (← getPotency table env name) })
    timing_spec := (← newTimingSpec {
      base_cast_time := (.int 0)
      animation_lock := (.int 650)
      application_delay := (.int 1030)
      affected_by_haste_buffs := (.bool false)
      affected_by_speed_stat := (.bool false) }) })

/-- class_skills/melee/rpr.py:261-276 `soul_scythe` -/
def soul_scythe (env : Env) : Py PyVal := do
  let name : PyVal := (.str "Soul Scythe")
  return (← newSkill {
    name := name
    is_GCD := (.bool true)
    damage_spec := (← newDamageSpec { potency := (← getPotency table env name) })
    timing_spec := (← newTimingSpec {
      base_cast_time := (.int 0)
      animation_lock := (.int 650)
      application_delay := (.int 670)
      affected_by_haste_buffs := (.bool false)
      affected_by_speed_stat := (.bool false) })
    has_aoe := (.bool true) })

/-- class_skills/melee/rpr.py:278-292 `__get_enhanced_gibbet_follow_up` -/
def get_enhanced_gibbet_follow_up (env : Env) : Py PyVal := do
  let name : PyVal := (.str "Enhanced Gibbet")
  return (← newFollowUp {
    skill := (← newSkill {
      name := name
      is_GCD := (.bool false)
      buff_spec := (← newStatusEffectSpec {
        add_to_skill_modifier_condition := (.bool true)
        num_uses := (.int 1)
        duration := (← PyVal.mul (.int 60) (.int 1000))
        skill_allowlist := (← getSkillData table env name (.str "allowlist")) }) })
    delay_after_parent_application := (.int 0) })

/-- class_skills/melee/rpr.py:294-308 `__get_enhanced_gallows_follow_up` -/
def get_enhanced_gallows_follow_up (env : Env) : Py PyVal := do
  let name : PyVal := (.str "Enhanced Gallows")
  return (← newFollowUp {
    skill := (← newSkill {
      name := name
      is_GCD := (.bool false)
      buff_spec := (← newStatusEffectSpec {
        add_to_skill_modifier_condition := (.bool true)
        num_uses := (.int 1)
        duration := (← PyVal.mul (.int 60) (.int 1000))
        skill_allowlist := (← getSkillData table env name (.str "allowlist")) }) })
    delay_after_parent_application := (.int 0) })

/-- class_skills/melee/rpr.py:310-336 `gibbet` -/
def gibbet (env : Env) : Py PyVal := do
  let name : PyVal := (.str "Gibbet")
  return (← newSkill {
    name := name
    is_GCD := (.bool true)
    damage_spec := (mkDict [
      ((.str SimConsts.DEFAULT_CONDITION), (← newDamageSpec { potency := (← getPotency table env name) })),
      ((.str "No Positional"), (← newDamageSpec { potency := (← getPotencyNoPositional table env name) })),
      ((.str "Enhanced Gibbet"), (← newDamageSpec { potency := (← getSkillData table env name (.str "potency_gibbet")) })),
      ((.str "Enhanced Gibbet, No Positional"), (← newDamageSpec {
        potency := (← getSkillData table env name (.str "potency_no_pos_gibbet")) }))])
    timing_spec := (← newTimingSpec {
      base_cast_time := (.int 0)
      animation_lock := (.int 650)
      application_delay := (.int 490) })
    follow_up_skills := (.tuple [(← get_enhanced_gallows_follow_up env)]) })

/-- class_skills/melee/rpr.py:338-364 `gallows` -/
def gallows (env : Env) : Py PyVal := do
  let name : PyVal := (.str "Gallows")
  return (← newSkill {
    name := name
    is_GCD := (.bool true)
    damage_spec := (mkDict [
      ((.str SimConsts.DEFAULT_CONDITION), (← newDamageSpec { potency := (← getPotency table env name) })),
      ((.str "No Positional"), (← newDamageSpec { potency := (← getPotencyNoPositional table env name) })),
      ((.str "Enhanced Gallows"), (← newDamageSpec { potency := (← getSkillData table env name (.str "potency_gallows")) })),
      ((.str "Enhanced Gallows, No Positional"), (← newDamageSpec {
        potency := (← getSkillData table env name (.str "potency_no_pos_gallows")) }))])
    timing_spec := (← newTimingSpec {
      base_cast_time := (.int 0)
      animation_lock := (.int 650)
      application_delay := (.int 490) })
    follow_up_skills := (.tuple [(← get_enhanced_gibbet_follow_up env)]) })

/-- class_skills/melee/rpr.py:366-377 `guillotine` -/
def guillotine (env : Env) : Py PyVal := do
  let name : PyVal := (.str "Guillotine")
  return (← newSkill {
    name := name
    is_GCD := (.bool true)
    damage_spec := (← newDamageSpec { potency := (← getPotency table env name) })
    timing_spec := (← newTimingSpec {
      base_cast_time := (.int 0)
      animation_lock := (.int 650)
      application_delay := (.int 490) })
    has_aoe := (.bool true) })

/-- class_skills/melee/rpr.py:379-389 `unveiled_gibbet` -/
def unveiled_gibbet (env : Env) : Py PyVal := do
  let name : PyVal := (.str "Unveiled Gibbet")
  return (← newSkill {
    name := name
    is_GCD := (.bool false)
    damage_spec := (← newDamageSpec { potency := (← getPotency table env name) })
    timing_spec := (← newTimingSpec {
      base_cast_time := (.int 0)
      animation_lock := (.int 650)
      application_delay := (.int 540) }) })

/-- class_skills/melee/rpr.py:391-401 `unveiled_gallows` -/
def unveiled_gallows (env : Env) : Py PyVal := do
  let name : PyVal := (.str "Unveiled Gallows")
  return (← newSkill {
    name := name
    is_GCD := (.bool false)
    damage_spec := (← newDamageSpec { potency := (← getPotency table env name) })
    timing_spec := (← newTimingSpec {
      base_cast_time := (.int 0)
      animation_lock := (.int 650)
      application_delay := (.int 540) }) })

/-- class_skills/melee/rpr.py:403-417 `arcane_circle` -/
def arcane_circle (env : Env) : Py PyVal := do
  let name : PyVal := (.str "Arcane Circle")
  return (← newSkill {
    name := name
    is_GCD := (.bool false)
    buff_spec := (← newStatusEffectSpec {
      damage_mult := (.float (103 / 100))
      duration := (← getSkillData table env name (.str "duration"))
      is_party_effect := (.bool true) })
    timing_spec := (← newTimingSpec {
      base_cast_time := (.int 0)
      animation_lock := (.int 650)
      application_delay := (.int 625) }) })

/-- class_skills/melee/rpr.py:419-431 `gluttony` -/
def gluttony (env : Env) : Py PyVal := do
  let name : PyVal := (.str "Gluttony")
  return (← newSkill {
    name := name
    is_GCD := (.bool false)
    damage_spec := (← newDamageSpec { potency := (← getPotency table env name) })
    timing_spec := (← newTimingSpec {
      base_cast_time := (.int 0)
      animation_lock := (.int 650)
      application_delay := (.int 1070) })
    has_aoe := (.bool true)
    aoe_dropoff := (.float (25 / 100)) })

/-- class_skills/melee/rpr.py:433-447 `__get_enhanced_void_reaping_follow_up` -/
def get_enhanced_void_reaping_follow_up (_env : Env) : Py PyVal := do
  let name : PyVal := (.str "Enhanced Void Reaping")
  return (← newFollowUp {
    skill := (← newSkill {
      name := name
      is_GCD := (.bool false)
      buff_spec := (← newStatusEffectSpec {
        add_to_skill_modifier_condition := (.bool true)
        num_uses := (.int 1)
        duration := (← PyVal.mul (.int 60) (.int 1000))
        skill_allowlist := (.tuple [(.str "Void Reaping")]) }) })
    delay_after_parent_application := (.int 0) })

/-- class_skills/melee/rpr.py:449-463 `__get_enhanced_cross_reaping_follow_up` -/
def get_enhanced_cross_reaping_follow_up (_env : Env) : Py PyVal := do
  let name : PyVal := (.str "Enhanced Cross Reaping")
  return (← newFollowUp {
    skill := (← newSkill {
      name := name
      is_GCD := (.bool false)
      buff_spec := (← newStatusEffectSpec {
        add_to_skill_modifier_condition := (.bool true)
        num_uses := (.int 1)
        duration := (← PyVal.mul (.int 60) (.int 1000))
        skill_allowlist := (.tuple [(.str "Cross Reaping")]) }) })
    delay_after_parent_application := (.int 0) })

/-- class_skills/melee/rpr.py:465-487 `void_reaping` -/
def void_reaping (env : Env) : Py PyVal := do
  let name : PyVal := (.str "Void Reaping")
  return (← newSkill {
    name := name
    is_GCD := (.bool true)
    damage_spec := (mkDict [
      ((.str SimConsts.DEFAULT_CONDITION), (← newDamageSpec { potency := (← getPotency table env name) })),
      ((.str "Enhanced Void Reaping"), (← newDamageSpec { potency := (← getSkillData table env name (.str "potency_enhanced")) }))])
    timing_spec := (← newTimingSpec {
      base_cast_time := (.int 0)
      gcd_base_recast_time := (.int 1500)
      application_delay := (.int 540)
      affected_by_haste_buffs := (.bool false)
      affected_by_speed_stat := (.bool false) })
    follow_up_skills := (.tuple [(← get_enhanced_cross_reaping_follow_up env)]) })

/-- class_skills/melee/rpr.py:489-507 `cross_reaping` -/
def cross_reaping (env : Env) : Py PyVal := do
  let name : PyVal := (.str "Cross Reaping")
  return (← newSkill {
    name := name
    is_GCD := (.bool true)
    damage_spec := (mkDict [
      ((.str SimConsts.DEFAULT_CONDITION), (← newDamageSpec { potency := (← getPotency table env name) })),
      ((.str "Enhanced Cross Reaping"), (← newDamageSpec { potency := (← getSkillData table env name (.str "potency_enhanced")) }))])
    timing_spec := (← newTimingSpec {
      base_cast_time := (.int 0)
      gcd_base_recast_time := (.int 1500)
      application_delay := (.int 620) })
    follow_up_skills := (.tuple [(← get_enhanced_void_reaping_follow_up env)]) })

/-- class_skills/melee/rpr.py:509-520 `grim_reaping` -/
def grim_reaping (env : Env) : Py PyVal := do
  let name : PyVal := (.str "Grim Reaping")
  return (← newSkill {
    name := name
    is_GCD := (.bool true)
    damage_spec := (← newDamageSpec { potency := (← getPotency table env name) })
    timing_spec := (← newTimingSpec {
      base_cast_time := (.int 0)
      gcd_base_recast_time := (.int 1500)
      application_delay := (.int 800) })
    has_aoe := (.bool true) })

/-- class_skills/melee/rpr.py:522-537 `harvest_moon` -/
def harvest_moon (env : Env) : Py PyVal := do
  let name : PyVal := (.str "Harvest Moon")
  return (← newSkill {
    name := name
    is_GCD := (.bool true)
    damage_spec := (← newDamageSpec { potency := (← getPotency table env name) })
    timing_spec := (← newTimingSpec {
      base_cast_time := (.int 0)
      gcd_base_recast_time := (.int 2500)
      application_delay := (.int 1160)
      affected_by_speed_stat := (.bool false) })
    has_aoe := (.bool true)
    aoe_dropoff := (.float (5 / 10)) })

/-- class_skills/melee/rpr.py:539-549 `lemures_slice` -/
def lemures_slice (env : Env) : Py PyVal := do
  let name : PyVal := (.str "Lemure's Slice")
  return (← newSkill {
    name := name
    is_GCD := (.bool false)
    damage_spec := (← newDamageSpec { potency := (← getPotency table env name) })
    timing_spec := (← newTimingSpec {
      base_cast_time := (.int 0)
      animation_lock := (.int 650)
      application_delay := (.int 710) }) })

/-- class_skills/melee/rpr.py:551-562 `lemures_scythe` -/
def lemures_scythe (env : Env) : Py PyVal := do
  let name : PyVal := (.str "Lemure's Scythe")
  return (← newSkill {
    name := name
    is_GCD := (.bool false)
    damage_spec := (← newDamageSpec { potency := (← getPotency table env name) })
    timing_spec := (← newTimingSpec {
      base_cast_time := (.int 0)
      animation_lock := (.int 650)
      application_delay := (.int 670) })
    has_aoe := (.bool true) })

/-- class_skills/melee/rpr.py:564-590 `plentiful_harvest` -/
def plentiful_harvest (env : Env) : Py PyVal := do
  let name : PyVal := (.str "Plentiful Harvest")
  let base_potency : PyVal := (← getSkillData table env name (.str "base_potency"))
  let potency_increment : PyVal := (← getSkillData table env name (.str "potency_increment"))
  return (← newSkill {
    name := name
    is_GCD := (.bool true)
    damage_spec := (mkDict [
      ((.str SimConsts.DEFAULT_CONDITION), (← newDamageSpec {
        potency := (← PyVal.add base_potency (← PyVal.mul (.int 7) potency_increment)) })),
      ((.str "1 stack"), (← newDamageSpec { potency := base_potency })),
      ((.str "2 stacks"), (← newDamageSpec { potency := (← PyVal.add base_potency potency_increment) })),
      ((.str "3 stacks"), (← newDamageSpec {
        potency := (← PyVal.add base_potency (← PyVal.mul (.int 2) potency_increment)) })),
      ((.str "4 stacks"), (← newDamageSpec {
        potency := (← PyVal.add base_potency (← PyVal.mul (.int 3) potency_increment)) })),
      ((.str "5 stacks"), (← newDamageSpec {
        potency := (← PyVal.add base_potency (← PyVal.mul (.int 4) potency_increment)) })),
      ((.str "6 stacks"), (← newDamageSpec {
        potency := (← PyVal.add base_potency (← PyVal.mul (.int 5) potency_increment)) })),
      ((.str "7 stacks"), (← newDamageSpec {
        potency := (← PyVal.add base_potency (← PyVal.mul (.int 6) potency_increment)) })),
      ((.str "8 stacks"), (← newDamageSpec {
        potency := (← PyVal.add base_potency (← PyVal.mul (.int 7) potency_increment)) }))])
    timing_spec := (← newTimingSpec {
      base_cast_time := (.int 0)
      animation_lock := (.int 650)
      application_delay := (.int 1160) })
    has_aoe := (.bool true)
    aoe_dropoff := (.float (6 / 10)) })

/-- class_skills/melee/rpr.py:592-604 `communio` -/
def communio (env : Env) : Py PyVal := do
  let name : PyVal := (.str "Communio")
  return (← newSkill {
    name := name
    is_GCD := (.bool true)
    damage_spec := (← newDamageSpec { potency := (← getPotency table env name) })
    timing_spec := (← newTimingSpec {
      base_cast_time := (.int 1300)
      application_delay := (.int 620)
      affected_by_speed_stat := (.bool false) })
    has_aoe := (.bool true)
    aoe_dropoff := (.float (6 / 10)) })

/-- class_skills/melee/rpr.py:606-620 `sacrificium` -/
def sacrificium (env : Env) : Py PyVal := do
  if decide (env.level < 92) then
    return .none
  let name : PyVal := (.str "Sacrificium")
  return (← newSkill {
    name := name
    is_GCD := (.bool false)
    damage_spec := (← newDamageSpec { potency := (← getPotency table env name) })
    timing_spec := (← newTimingSpec {
      base_cast_time := (.int 0)
      animation_lock := (.int 650)
      application_delay := (.int 760) })
    has_aoe := (.bool true)
    aoe_dropoff := (.float (5 / 10)) })

/-- class_skills/melee/rpr.py:622-650 `executioners_gibbet` -/
def executioners_gibbet (env : Env) : Py PyVal := do
  if decide (env.level < 96) then
    return .none
  let name : PyVal := (.str "Executioner's Gibbet")
  return (← newSkill {
    name := name
    is_GCD := (.bool true)
    damage_spec := (mkDict [
      ((.str SimConsts.DEFAULT_CONDITION), (← newDamageSpec { potency := (← getPotency table env name) })),
      ((.str "No Positional"), (← newDamageSpec { potency := (← getPotencyNoPositional table env name) })),
      ((.str "Enhanced Gibbet"), (← newDamageSpec { potency := (← getSkillData table env name (.str "potency_enhanced")) })),
      ((.str "Enhanced Gibbet, No Positional"), (← newDamageSpec {
        potency := (← getSkillData table env name (.str "potency_no_pos_enhanced")) }))])
    timing_spec := (← newTimingSpec {
      base_cast_time := (.int 0)
      animation_lock := (.int 650)
      application_delay := (.int 620) })
    follow_up_skills := (.tuple [(← get_enhanced_gallows_follow_up env)]) })

/-- class_skills/melee/rpr.py:652-680 `executioners_gallows` -/
def executioners_gallows (env : Env) : Py PyVal := do
  if decide (env.level < 96) then
    return .none
  let name : PyVal := (.str "Executioner's Gallows")
  return (← newSkill {
    name := name
    is_GCD := (.bool true)
    damage_spec := (mkDict [
      ((.str SimConsts.DEFAULT_CONDITION), (← newDamageSpec { potency := (← getPotency table env name) })),
      ((.str "No Positional"), (← newDamageSpec { potency := (← getPotencyNoPositional table env name) })),
      ((.str "Enhanced Gallows"), (← newDamageSpec { potency := (← getSkillData table env name (.str "potency_enhanced")) })),
      ((.str "Enhanced Gallows, No Positional"), (← newDamageSpec {
        potency := (← getSkillData table env name (.str "potency_no_pos_enhanced")) }))])
    timing_spec := (← newTimingSpec {
      base_cast_time := (.int 0)
      animation_lock := (.int 650)
      application_delay := (.int 2140) })
    follow_up_skills := (.tuple [(← get_enhanced_gibbet_follow_up env)]) })

/-- class_skills/melee/rpr.py:682-695 `executioners_guillotine` -/
def executioners_guillotine (env : Env) : Py PyVal := do
  if decide (env.level < 96) then
    return .none
  let name : PyVal := (.str "Executioner's Guillotine")
  return (← newSkill {
    name := name
    is_GCD := (.bool true)
    damage_spec := (← newDamageSpec { potency := (← getPotency table env name) })
    timing_spec := (← newTimingSpec {
      base_cast_time := (.int 0)
      animation_lock := (.int 650)
      application_delay := (.int 540) })
    has_aoe := (.bool true) })

/-- class_skills/melee/rpr.py:697-713 `perfectio` -/
def perfectio (env : Env) : Py PyVal := do
  if decide (env.level < 100) then
    return .none
  let name : PyVal := (.str "Perfectio")
  return (← newSkill {
    name := name
    is_GCD := (.bool true)
    damage_spec := (← newDamageSpec { potency := (← getPotency table env name) })
    timing_spec := (← newTimingSpec {
      base_cast_time := (.int 0)
      application_delay := (.int 1290)
      affected_by_speed_stat := (.bool false) })
    has_aoe := (.bool true)
    aoe_dropoff := (.float (6 / 10)) })

/-- class_skills/melee/rpr.py:715-723 `hells_ingress` -/
def hells_ingress (env : Env) : Py PyVal := do
  let name : PyVal := (.str "Hell's Ingress")
  return (← newSkill {
    name := name
    is_GCD := (.bool false)
    timing_spec := (← instantTimingSpec)
    follow_up_skills := (.tuple [(← get_enhanced_harp_follow_up env)]) })

/-- class_skills/melee/rpr.py:725-733 `hells_egress` -/
def hells_egress (env : Env) : Py PyVal := do
  let name : PyVal := (.str "Hell's Egress")
  return (← newSkill {
    name := name
    is_GCD := (.bool false)
    timing_spec := (← instantTimingSpec)
    follow_up_skills := (.tuple [(← get_enhanced_harp_follow_up env)]) })

/-- class_skills/melee/rpr.py:739-742 `true_north` -/
def true_north (_env : Env) : Py PyVal := do
  let name : PyVal := (.str "True North")
  return (← newSkill {
    name := name
    is_GCD := (.bool false)
    timing_spec := (← instantTimingSpec) })

/-- class_skills/melee/rpr.py:744-757 `enshroud` -/
def enshroud (_env : Env) : Py PyVal := do
  let name : PyVal := (.str "Enshroud")
  return (← newSkill {
    name := name
    is_GCD := (.bool false)
    buff_spec := (← newStatusEffectSpec {
      expires_status_effects := (.tuple [(.str "Enhanced Void Reaping"), (.str "Enhanced Cross Reaping")]) })
    timing_spec := (← instantTimingSpec) })

/-- class_skills/melee/rpr.py:759-774 `soulsow` -/
def soulsow (_env : Env) : Py PyVal := do
  let name : PyVal := (.str "Soulsow")
  return (← newSkill {
    name := name
    is_GCD := (.bool true)
    timing_spec := (mkDict [
      ((.str SimConsts.DEFAULT_CONDITION), (← instantTimingSpec)),
      ((.str "In Combat"), (← newTimingSpec {
        base_cast_time := (.int 5000)
        gcd_base_recast_time := (.int 2500)
        affected_by_speed_stat := (.bool false) }))]) })

/-- class_skills/melee/rpr.py:16-774 `RprSkills`; the methods in the order of `dir`. -/
def job (env : Env) : JobClass where
  jobClass := "RPR"
  skillMethods := [
    arcane_circle env,
    auto env,
    blood_stalk env,
    communio env,
    cross_reaping env,
    enshroud env,
    executioners_gallows env,
    executioners_gibbet env,
    executioners_guillotine env,
    gallows env,
    gibbet env,
    gluttony env,
    grim_reaping env,
    grim_swathe env,
    guillotine env,
    harpe env,
    harvest_moon env,
    hells_egress env,
    hells_ingress env,
    infernal_slice env,
    lemures_scythe env,
    lemures_slice env,
    nightmare_scythe env,
    perfectio env,
    plentiful_harvest env,
    sacrificium env,
    shadow_of_death env,
    slice env,
    soul_scythe env,
    soul_slice env,
    soulsow env,
    spinning_scythe env,
    true_north env,
    unveiled_gallows env,
    unveiled_gibbet env,
    void_reaping env,
    waxing_slice env,
    whorl_of_death env]

end Ama.GameData.Rpr
