import Verif.Model.GameData.Values

/-!
# RDM

Model of `simulator/game_data/class_skills/caster/rdm.py` and `simulator/game_data/class_skills/caster/rdm_data.py`, written by
`tools/translate.py`: one function per method.  Paths in the comments are relative to
`simulator/game_data`.
-/

namespace Ama.GameData.Rdm

open PyVal

/-- class_skills/caster/rdm_data.py:7-106 `ALL_DATA` -/
def table : Table := [
  ("Riposte", [
    (90, [("potency", [(.p655, .ok (.int 130))])]),
    (100, [("potency", [(.p70, .ok (.int 130))])])]),
  ("Corps-a-corps", [
    (90, [("potency", [(.p655, .ok (.int 130))])]),
    (100, [("potency", [(.p70, .ok (.int 130))])])]),
  ("Verthunder II", [
    (90, [("potency", [(.p655, .ok (.int 140))])]),
    (100, [("potency", [(.p70, .ok (.int 140))])])]),
  ("Veraero II", [
    (90, [("potency", [(.p655, .ok (.int 140))])]),
    (100, [("potency", [(.p70, .ok (.int 140))])])]),
  ("Verfire", [
    (90, [("potency", [(.p655, .ok (.int 340))])]),
    (100, [("potency", [(.p70, .ok (.int 380))])])]),
  ("Verstone", [
    (90, [("potency", [(.p655, .ok (.int 340))])]),
    (100, [("potency", [(.p70, .ok (.int 380))])])]),
  ("Zwerchhau", [
    (90, [
      ("potency", [(.p655, .ok (.int 150))]),
      ("potency_no_combo", [(.p655, .ok (.int 100))])]),
    (100, [
      ("potency", [(.p70, .ok (.int 150))]),
      ("potency_no_combo", [(.p70, .ok (.int 100))])])]),
  ("Displacement", [
    (90, [("potency", [(.p655, .ok (.int 180))])]),
    (100, [("potency", [(.p70, .ok (.int 180))])])]),
  ("Engagement", [
    (90, [("potency", [(.p655, .ok (.int 180))])]),
    (100, [("potency", [(.p70, .ok (.int 180))])])]),
  ("Fleche", [
    (90, [("potency", [(.p655, .ok (.int 460))])]),
    (100, [("potency", [(.p70, .ok (.int 480))])])]),
  ("Redoublement", [
    (90, [
      ("potency", [(.p655, .ok (.int 230))]),
      ("potency_no_combo", [(.p655, .ok (.int 100))])]),
    (100, [
      ("potency", [(.p70, .ok (.int 230))]),
      ("potency_no_combo", [(.p70, .ok (.int 100))])])]),
  ("Moulinet", [
    (90, [("potency", [(.p655, .ok (.int 60))])]),
    (100, [("potency", [(.p70, .ok (.int 60))])])]),
  ("Contre Sixte", [
    (90, [("potency", [(.p655, .ok (.int 380))])]),
    (100, [("potency", [(.p70, .ok (.int 400)), (.p705, .ok (.int 420))])])]),
  ("Embolden", [
    (90, [
      ("duration", [
        (.p655, do return (← PyVal.toInt (← PyVal.mul (.float (1995 / 100)) (.int 1000))))])]),
    (100, [
      ("duration", [
        (.p70, do return (← PyVal.toInt (← PyVal.mul (.float (1995 / 100)) (.int 1000))))])])]),
  ("Manafication", [
    (90, [("duration", [(.p655, do return (← PyVal.mul (.int 15) (.int 1000)))])]),
    (100, [
      ("duration", [
        (.p70, do return (← PyVal.mul (.int 15) (.int 1000))),
        (.p701, do return (← PyVal.mul (.int 30) (.int 1000)))])])]),
  ("Jolt II", [
    (90, [("potency", [(.p655, .ok (.int 320))])]),
    (100, [("potency", [(.p70, .ok (.int 280))])])]),
  ("Jolt III", [
    (90, [("potency", [(.p70, .ok (.int 360))])]),
    (100, [("potency", [(.p70, .ok (.int 360))])])]),
  ("Impact", [
    (90, [
      ("potency", [(.p655, .ok (.int 210))]),
      ("potency_acceleration", [(.p655, .ok (.int 260))])]),
    (100, [
      ("potency", [(.p70, .ok (.int 210))]),
      ("potency_acceleration", [(.p70, .ok (.int 260))])])]),
  ("Verflare", [
    (90, [("potency", [(.p655, .ok (.int 600))])]),
    (100, [("potency", [(.p70, .ok (.int 620)), (.p71, .ok (.int 650))])])]),
  ("Verholy", [
    (90, [("potency", [(.p655, .ok (.int 600))])]),
    (100, [("potency", [(.p70, .ok (.int 620)), (.p71, .ok (.int 650))])])]),
  ("Reprise", [
    (90, [("potency", [(.p655, .ok (.int 100))])]),
    (100, [("potency", [(.p70, .ok (.int 100))])])]),
  ("Scorch", [
    (90, [("potency", [(.p655, .ok (.int 680))])]),
    (100, [("potency", [(.p70, .ok (.int 700)), (.p71, .ok (.int 750))])])]),
  ("Verthunder III", [
    (90, [("potency", [(.p655, .ok (.int 380))])]),
    (100, [("potency", [(.p70, .ok (.int 420)), (.p705, .ok (.int 440))])])]),
  ("Veraero III", [
    (90, [("potency", [(.p655, .ok (.int 380))])]),
    (100, [("potency", [(.p70, .ok (.int 420)), (.p705, .ok (.int 440))])])]),
  ("Resolution", [
    (90, [("potency", [(.p655, .ok (.int 750))])]),
    (100, [("potency", [(.p70, .ok (.int 800)), (.p71, .ok (.int 850))])])]),
  ("Vice of Thorns", [(100, [("potency", [(.p70, .ok (.int 700))])])]),
  ("Grand Impact", [(100, [("potency", [(.p70, .ok (.int 600))])])]),
  ("Prefulgence", [(100, [("potency", [(.p70, .ok (.int 900))])])]),
  ("Enchanted Riposte", [
    (90, [("potency", [(.p655, .ok (.int 280))])]),
    (100, [("potency", [(.p70, .ok (.int 300))])])]),
  ("Enchanted Zwerchhau", [
    (90, [
      ("potency", [(.p655, .ok (.int 340))]),
      ("potency_no_combo", [(.p655, .ok (.int 150))])]),
    (100, [
      ("potency", [(.p70, .ok (.int 360))]),
      ("potency_no_combo", [(.p70, .ok (.int 170))])])]),
  ("Enchanted Redoublement", [
    (90, [
      ("potency", [(.p655, .ok (.int 500))]),
      ("potency_no_combo", [(.p655, .ok (.int 130))])]),
    (100, [
      ("potency", [(.p70, .ok (.int 540))]),
      ("potency_no_combo", [(.p70, .ok (.int 170))])])]),
  ("Enchanted Moulinet", [
    (90, [("potency", [(.p655, .ok (.int 130))])]),
    (100, [("potency", [(.p70, .ok (.int 130))])])]),
  ("Enchanted Moulinet Deux", [
    (90, [("potency", [(.p70, .ok (.int 140))])]),
    (100, [("potency", [(.p70, .ok (.int 140))])])]),
  ("Enchanted Moulinet Trois", [
    (90, [("potency", [(.p70, .ok (.int 150))])]),
    (100, [("potency", [(.p70, .ok (.int 150))])])]),
  ("Enchanted Reprise", [
    (90, [("potency", [(.p655, .ok (.int 340))])]),
    (100, [("potency", [(.p70, .ok (.int 380)), (.p705, .ok (.int 420))])])])]

/-- class_skills/caster/rdm.py:22-22 `__rdm_caster_tax`, set by the constructor -/
def attr_rdm_caster_tax (_env : Env) : Py PyVal := do
  return (.int 100)

/-- class_skills/caster/rdm.py:24-25 `get_status_effect_priority` -/
def get_status_effect_priority (_env : Env) : Py PyVal := do
  return (.tuple [(.str "Swiftcast"), (.str "Acceleration"), (.str "Dualcast")])

/-- class_skills/caster/rdm.py:27-30 `get_combo_breakers` -/
def get_combo_breakers (env : Env) : Py PyVal := do
  if env.ge .p70 then
    return (.tuple [
      (.tuple [(.int 1), (.tuple [(.int 0)])]),
      (.tuple [(.int 0), (.tuple [(.int 1)])])])
  return .none

/-- class_skills/caster/rdm.py:32-57 `__get_dualcast_follow_up` -/
def get_dualcast_follow_up (_env : Env) : Py PyVal := do
  let dualcast_buff : PyVal := (← newSkill {
    name := (.str "Dualcast")
    is_GCD := (.bool false)
    buff_spec := (← newStatusEffectSpec {
      flat_cast_time_reduction := (.inf)
      add_to_skill_modifier_condition := (.bool true)
      duration := (← PyVal.mul (.int 15) (.int 1000))
      num_uses := (.int 1)
      skill_allowlist := (.tuple [
        (.str "Verthunder II"), (.str "Veraero II"), (.str "Verfire"), (.str "Verstone"),
        (.str "Vercure"), (.str "Jolt II"), (.str "Jolt III"), (.str "Verraise"), (.str "Impact"),
        (.str "Grand Impact"), (.str "Verthunder III"), (.str "Veraero III")]) }) })
  return (← newFollowUp { skill := dualcast_buff, delay_after_parent_application := (.int 0) })

/-- class_skills/caster/rdm.py:59-70 `auto` -/
def auto (_env : Env) : Py PyVal := do
  let name : PyVal := (.str "Auto")
  return (← newSkill {
    name := name
    is_GCD := (.bool false)
    timing_spec := (← autoTimingSpec)
    damage_spec := (← newDamageSpec {
      potency := (.int 90)
      damage_class := (.damageClass .auto)
      trait_damage_mult_override := (.int 1) })
    status_effect_denylist := (.tuple [(.str "Manafication"), (.str "Embolden")]) })

/-- class_skills/caster/rdm.py:72-82 `riposte` -/
def riposte (env : Env) : Py PyVal := do
  let name : PyVal := (.str "Riposte")
  return (← newSkill {
    name := name
    is_GCD := (.bool true)
    damage_spec := (← newDamageSpec { potency := (← getPotency table env name) })
    combo_spec := (.tuple [(← newComboSpec {})])
    timing_spec := (← instantTimingSpec)
    status_effect_denylist := (.tuple [(.str "Manafication"), (.str "Embolden")]) })

/-- class_skills/caster/rdm.py:84-95 `corps_a_corps` -/
def corps_a_corps (env : Env) : Py PyVal := do
  let name : PyVal := (.str "Corps-a-corps")
  return (← newSkill {
    name := name
    is_GCD := (.bool false)
    damage_spec := (← newDamageSpec { potency := (← getPotency table env name) })
    timing_spec := (← newTimingSpec {
      base_cast_time := (.int 0)
      animation_lock := (.int 650)
      application_delay := (.int 630) })
    status_effect_denylist := (.tuple [(.str "Manafication"), (.str "Embolden")]) })

/-- class_skills/caster/rdm.py:97-129 `verthunder_ii` -/
def verthunder_ii (env : Env) : Py PyVal := do
  let name : PyVal := (.str "Verthunder II")
  let verthunder_2_damage_follow_up : PyVal := (← newFollowUp {
    skill := (← newSkill {
      name := name
      damage_spec := (← newDamageSpec { potency := (← getPotency table env name) }) })
    delay_after_parent_application := (.int 800)
    primary_target_only := (.bool false) })
  return (← newSkill {
    name := name
    is_GCD := (.bool true)
    timing_spec := (mkDict [
      ((.str SimConsts.DEFAULT_CONDITION), (← newTimingSpec {
        base_cast_time := (.int 2000)
        animation_lock := (← attr_rdm_caster_tax env)
        application_delay := (.int 0) })),
      ((.str "Dualcast"), (← newTimingSpec {
        base_cast_time := (.int 0)
        animation_lock := (.int 650)
        application_delay := (.int 0) }))])
    follow_up_skills := (mkDict [
      ((.str SimConsts.DEFAULT_CONDITION), (.tuple [verthunder_2_damage_follow_up, (← get_dualcast_follow_up env)])),
      ((.str "Dualcast"), (.tuple [verthunder_2_damage_follow_up]))])
    has_aoe := (.bool true) })

/-- class_skills/caster/rdm.py:131-163 `veraero_ii` -/
def veraero_ii (env : Env) : Py PyVal := do
  let name : PyVal := (.str "Veraero II")
  let veraero_2_damage_follow_up : PyVal := (← newFollowUp {
    skill := (← newSkill {
      name := name
      damage_spec := (← newDamageSpec { potency := (← getPotency table env name) }) })
    delay_after_parent_application := (.int 800)
    primary_target_only := (.bool false) })
  return (← newSkill {
    name := name
    is_GCD := (.bool true)
    timing_spec := (mkDict [
      ((.str SimConsts.DEFAULT_CONDITION), (← newTimingSpec {
        base_cast_time := (.int 2000)
        animation_lock := (← attr_rdm_caster_tax env)
        application_delay := (.int 0) })),
      ((.str "Dualcast"), (← newTimingSpec {
        base_cast_time := (.int 0)
        animation_lock := (.int 650)
        application_delay := (.int 0) }))])
    follow_up_skills := (mkDict [
      ((.str SimConsts.DEFAULT_CONDITION), (.tuple [veraero_2_damage_follow_up, (← get_dualcast_follow_up env)])),
      ((.str "Dualcast"), (.tuple [veraero_2_damage_follow_up]))])
    has_aoe := (.bool true) })

/-- class_skills/caster/rdm.py:165-195 `verfire` -/
def verfire (env : Env) : Py PyVal := do
  let name : PyVal := (.str "Verfire")
  let verfire_damage_follow_up : PyVal := (← newFollowUp {
    skill := (← newSkill {
      name := name
      damage_spec := (← newDamageSpec { potency := (← getPotency table env name) }) })
    delay_after_parent_application := (.int 800) })
  return (← newSkill {
    name := name
    is_GCD := (.bool true)
    timing_spec := (mkDict [
      ((.str SimConsts.DEFAULT_CONDITION), (← newTimingSpec {
        base_cast_time := (.int 2000)
        animation_lock := (← attr_rdm_caster_tax env)
        application_delay := (.int 0) })),
      ((.str "Dualcast"), (← newTimingSpec {
        base_cast_time := (.int 0)
        animation_lock := (.int 650)
        application_delay := (.int 0) }))])
    follow_up_skills := (mkDict [
      ((.str SimConsts.DEFAULT_CONDITION), (.tuple [verfire_damage_follow_up, (← get_dualcast_follow_up env)])),
      ((.str "Dualcast"), (.tuple [verfire_damage_follow_up]))]) })

/-- class_skills/caster/rdm.py:197-227 `verstone` -/
def verstone (env : Env) : Py PyVal := do
  let name : PyVal := (.str "Verstone")
  let verstone_damage_follow_up : PyVal := (← newFollowUp {
    skill := (← newSkill {
      name := name
      damage_spec := (← newDamageSpec { potency := (← getPotency table env name) }) })
    delay_after_parent_application := (.int 800) })
  return (← newSkill {
    name := name
    is_GCD := (.bool true)
    timing_spec := (mkDict [
      ((.str SimConsts.DEFAULT_CONDITION), (← newTimingSpec {
        base_cast_time := (.int 2000)
        animation_lock := (← attr_rdm_caster_tax env)
        application_delay := (.int 0) })),
      ((.str "Dualcast"), (← newTimingSpec {
        base_cast_time := (.int 0)
        animation_lock := (.int 650)
        application_delay := (.int 0) }))])
    follow_up_skills := (mkDict [
      ((.str SimConsts.DEFAULT_CONDITION), (.tuple [verstone_damage_follow_up, (← get_dualcast_follow_up env)])),
      ((.str "Dualcast"), (.tuple [verstone_damage_follow_up]))]) })

/-- class_skills/caster/rdm.py:229-248 `zwerchhau` -/
def zwerchhau (env : Env) : Py PyVal := do
  let name : PyVal := (.str "Zwerchhau")
  return (← newSkill {
    name := name
    is_GCD := (.bool true)
    damage_spec := (mkDict [
      ((.str SimConsts.DEFAULT_CONDITION), (← newDamageSpec { potency := (← getPotency table env name) })),
      ((.str "No Combo"), (← newDamageSpec { potency := (← getPotencyNoCombo table env name) }))])
    timing_spec := (← newTimingSpec {
      base_cast_time := (.int 0)
      animation_lock := (.int 650)
      application_delay := (.int 630) })
    combo_spec := (.tuple [
      (← newComboSpec {
        combo_actions := (.tuple [(.str "Riposte"), (.str "Enchanted Riposte")]) })])
    status_effect_denylist := (.tuple [(.str "Manafication"), (.str "Embolden")]) })

/-- class_skills/caster/rdm.py:250-261 `displacement` -/
def displacement (env : Env) : Py PyVal := do
  let name : PyVal := (.str "Displacement")
  return (← newSkill {
    name := name
    is_GCD := (.bool false)
    damage_spec := (← newDamageSpec { potency := (← getPotency table env name) })
    timing_spec := (← newTimingSpec {
      base_cast_time := (.int 0)
      animation_lock := (.int 650)
      application_delay := (.int 760) })
    status_effect_denylist := (.tuple [(.str "Manafication"), (.str "Embolden")]) })

/-- class_skills/caster/rdm.py:263-274 `engagement` -/
def engagement (env : Env) : Py PyVal := do
  let name : PyVal := (.str "Engagement")
  return (← newSkill {
    name := name
    is_GCD := (.bool false)
    damage_spec := (← newDamageSpec { potency := (← getPotency table env name) })
    timing_spec := (← newTimingSpec {
      base_cast_time := (.int 0)
      animation_lock := (.int 650)
      application_delay := (.int 580) })
    status_effect_denylist := (.tuple [(.str "Manafication"), (.str "Embolden")]) })

/-- class_skills/caster/rdm.py:276-287 `fleche` -/
def fleche (env : Env) : Py PyVal := do
  let name : PyVal := (.str "Fleche")
  return (← newSkill {
    name := name
    is_GCD := (.bool false)
    damage_spec := (← newDamageSpec { potency := (← getPotency table env name) })
    timing_spec := (← newTimingSpec {
      base_cast_time := (.int 0)
      animation_lock := (.int 650)
      application_delay := (.int 1160) })
    status_effect_denylist := (.tuple [(.str "Manafication"), (.str "Embolden")]) })

/-- class_skills/caster/rdm.py:289-308 `redoublement` -/
def redoublement (env : Env) : Py PyVal := do
  let name : PyVal := (.str "Redoublement")
  return (← newSkill {
    name := name
    is_GCD := (.bool true)
    combo_spec := (.tuple [
      (← newComboSpec {
        combo_actions := (.tuple [(.str "Zwerchhau"), (.str "Enchanted Zwerchhau")]) })])
    damage_spec := (mkDict [
      ((.str SimConsts.DEFAULT_CONDITION), (← newDamageSpec { potency := (← getPotency table env name) })),
      ((.str "No Combo"), (← newDamageSpec { potency := (← getPotencyNoCombo table env name) }))])
    timing_spec := (← newTimingSpec {
      base_cast_time := (.int 0)
      animation_lock := (.int 650)
      application_delay := (.int 630) })
    status_effect_denylist := (.tuple [(.str "Manafication"), (.str "Embolden")]) })

/-- class_skills/caster/rdm.py:310-322 `moulinet` -/
def moulinet (env : Env) : Py PyVal := do
  let name : PyVal := (.str "Moulinet")
  return (← newSkill {
    name := name
    is_GCD := (.bool true)
    damage_spec := (← newDamageSpec { potency := (← getPotency table env name) })
    timing_spec := (← newTimingSpec {
      base_cast_time := (.int 0)
      animation_lock := (.int 650)
      application_delay := (.int 800) })
    status_effect_denylist := (.tuple [(.str "Manafication"), (.str "Embolden")])
    has_aoe := (.bool true) })

/-- class_skills/caster/rdm.py:324-336 `contre_sixte` -/
def contre_sixte (env : Env) : Py PyVal := do
  let name : PyVal := (.str "Contre Sixte")
  return (← newSkill {
    name := name
    is_GCD := (.bool false)
    damage_spec := (← newDamageSpec { potency := (← getPotency table env name) })
    timing_spec := (← newTimingSpec {
      base_cast_time := (.int 0)
      animation_lock := (.int 650)
      application_delay := (.int 1160) })
    status_effect_denylist := (.tuple [(.str "Manafication"), (.str "Embolden")])
    has_aoe := (.bool true) })

/-- class_skills/caster/rdm.py:338-352 `embolden` -/
def embolden (env : Env) : Py PyVal := do
  let name : PyVal := (.str "Embolden")
  return (← newSkill {
    name := name
    is_GCD := (.bool false)
    buff_spec := (← newStatusEffectSpec {
      damage_mult := (.float (105 / 100))
      duration := (← getSkillData table env name (.str "duration"))
      is_party_effect := (.bool true) })
    timing_spec := (← newTimingSpec {
      base_cast_time := (.int 0)
      animation_lock := (.int 650)
      application_delay := (.int 660) }) })

/-- class_skills/caster/rdm.py:354-394 `manafication` -/
def manafication (env : Env) : Py PyVal := do
  let name : PyVal := (.str "Manafication")
  let manafication_allowlist : PyVal := (.tuple [
    (.str "Verthunder II"), (.str "Veraero II"), (.str "Verfire"), (.str "Verstone"),
    (.str "Jolt II"), (.str "Jolt III"), (.str "Impact"), (.str "Grand Impact"),
    (.str "Verflare"), (.str "Verholy"), (.str "Reprise"), (.str "Scorch"),
    (.str "Verthunder III"), (.str "Veraero III"), (.str "Resolution"),
    (.str "Enchanted Riposte"), (.str "Enchanted Zwerchhau"), (.str "Enchanted Redoublement"),
    (.str "Enchanted Moulinet"), (.str "Enchanted Moulinet Deux"),
    (.str "Enchanted Moulinet Trois"), (.str "Enchanted Reprise")])
  return (← newSkill {
    name := name
    is_GCD := (.bool false)
    combo_spec := (.tuple [(← newComboSpec {})])
    buff_spec := (← newStatusEffectSpec {
      damage_mult := (.float (105 / 100))
      duration := (← getSkillData table env name (.str "duration"))
      num_uses := (.int 6)
      skill_allowlist := manafication_allowlist })
    timing_spec := (← instantTimingSpec) })

/-- class_skills/caster/rdm.py:396-427 `jolt_ii` -/
def jolt_ii (env : Env) : Py PyVal := do
  let mut name : PyVal := .unbound
  name := (.str "Jolt II")
  let jolt_2_damage_follow_up : PyVal := (← newFollowUp {
    skill := (← newSkill {
      name := name
      damage_spec := (← newDamageSpec { potency := (← getPotency table env name) }) })
    delay_after_parent_application := (.int 760) })
  name := (.str "Jolt II")
  return (← newSkill {
    name := name
    is_GCD := (.bool true)
    timing_spec := (mkDict [
      ((.str SimConsts.DEFAULT_CONDITION), (← newTimingSpec {
        base_cast_time := (.int 2000)
        animation_lock := (← attr_rdm_caster_tax env)
        application_delay := (.int 0) })),
      ((.str "Dualcast"), (← newTimingSpec {
        base_cast_time := (.int 0)
        animation_lock := (.int 650)
        application_delay := (.int 0) }))])
    follow_up_skills := (mkDict [
      ((.str SimConsts.DEFAULT_CONDITION), (.tuple [jolt_2_damage_follow_up, (← get_dualcast_follow_up env)])),
      ((.str "Dualcast"), (.tuple [jolt_2_damage_follow_up]))]) })

/-- class_skills/caster/rdm.py:429-462 `jolt_iii` -/
def jolt_iii (env : Env) : Py PyVal := do
  if env.lt .p70 then
    return .none
  let name : PyVal := (.str "Jolt III")
  let jolt_3_damage_follow_up : PyVal := (← newFollowUp {
    skill := (← newSkill {
      name := name
      damage_spec := (← newDamageSpec { potency := (← getPotency table env name) }) })
    delay_after_parent_application := (.int 800) })
  return (← newSkill {
    name := name
    is_GCD := (.bool true)
    timing_spec := (mkDict [
      ((.str SimConsts.DEFAULT_CONDITION), (← newTimingSpec {
        base_cast_time := (.int 2000)
        animation_lock := (← attr_rdm_caster_tax env)
        application_delay := (.int 0) })),
      ((.str "Dualcast"), (← newTimingSpec {
        base_cast_time := (.int 0)
        animation_lock := (.int 650)
        application_delay := (.int 0) }))])
    follow_up_skills := (mkDict [
      ((.str SimConsts.DEFAULT_CONDITION), (.tuple [jolt_3_damage_follow_up, (← get_dualcast_follow_up env)])),
      ((.str "Dualcast"), (.tuple [jolt_3_damage_follow_up]))]) })

/-- class_skills/caster/rdm.py:464-516 `impact` -/
def impact (env : Env) : Py PyVal := do
  let name : PyVal := (.str "Impact")
  let impact_damage_follow_up : PyVal := (← newFollowUp {
    skill := (← newSkill {
      name := name
      damage_spec := (← newDamageSpec { potency := (← getPotency table env name) }) })
    delay_after_parent_application := (.int 760)
    primary_target_only := (.bool false) })
  let impact_acceleration_damage_follow_up : PyVal := (← newFollowUp {
    skill := (← newSkill {
      name := name
      damage_spec := (← newDamageSpec {
        potency := (← getSkillData table env name (.str "potency_acceleration")) }) })
    delay_after_parent_application := (.int 760)
    primary_target_only := (.bool false) })
  return (← newSkill {
    name := name
    is_GCD := (.bool true)
    timing_spec := (mkDict [
      ((.str SimConsts.DEFAULT_CONDITION), (← newTimingSpec {
        base_cast_time := (.int 5000)
        animation_lock := (← attr_rdm_caster_tax env)
        application_delay := (.int 0) })),
      ((.str "Dualcast"), (← newTimingSpec {
        base_cast_time := (.int 0)
        animation_lock := (.int 650)
        application_delay := (.int 0) })),
      ((.str "Acceleration"), (← newTimingSpec {
        base_cast_time := (.int 0)
        animation_lock := (.int 650)
        application_delay := (.int 0) })),
      ((.str "Acceleration, Dualcast"), (← newTimingSpec {
        base_cast_time := (.int 0)
        animation_lock := (.int 650)
        application_delay := (.int 0) }))])
    follow_up_skills := (mkDict [
      ((.str SimConsts.DEFAULT_CONDITION), (.tuple [impact_damage_follow_up, (← get_dualcast_follow_up env)])),
      ((.str "Dualcast"), (.tuple [impact_damage_follow_up])),
      ((.str "Acceleration"), (.tuple [impact_acceleration_damage_follow_up])),
      ((.str "Acceleration, Dualcast"), (.tuple [impact_acceleration_damage_follow_up]))])
    has_aoe := (.bool true) })

/-- class_skills/caster/rdm.py:518-531 `verflare` -/
def verflare (env : Env) : Py PyVal := do
  let name : PyVal := (.str "Verflare")
  return (← newSkill {
    name := name
    is_GCD := (.bool true)
    combo_spec := (.tuple [(← newComboSpec {})])
    damage_spec := (← newDamageSpec { potency := (← getPotency table env name) })
    timing_spec := (← newTimingSpec {
      base_cast_time := (.int 0)
      animation_lock := (.int 650)
      application_delay := (.int 1430) })
    has_aoe := (.bool true)
    aoe_dropoff := (.float (6 / 10)) })

/-- class_skills/caster/rdm.py:533-546 `verholy` -/
def verholy (env : Env) : Py PyVal := do
  let name : PyVal := (.str "Verholy")
  return (← newSkill {
    name := name
    is_GCD := (.bool true)
    combo_spec := (.tuple [(← newComboSpec {})])
    damage_spec := (← newDamageSpec { potency := (← getPotency table env name) })
    timing_spec := (← newTimingSpec {
      base_cast_time := (.int 0)
      animation_lock := (.int 650)
      application_delay := (.int 1430) })
    has_aoe := (.bool true)
    aoe_dropoff := (.float (6 / 10)) })

/-- class_skills/caster/rdm.py:548-556 `reprise` -/
def reprise (env : Env) : Py PyVal := do
  let name : PyVal := (.str "Reprise")
  return (← newSkill {
    name := name
    is_GCD := (.bool true)
    damage_spec := (← newDamageSpec { potency := (← getPotency table env name) })
    timing_spec := (← instantTimingSpec) })

/-- class_skills/caster/rdm.py:558-571 `scorch` -/
def scorch (env : Env) : Py PyVal := do
  let name : PyVal := (.str "Scorch")
  return (← newSkill {
    name := name
    is_GCD := (.bool true)
    combo_spec := (.tuple [
      (← newComboSpec { combo_actions := (.tuple [(.str "Verflare"), (.str "Verholy")]) })])
    damage_spec := (← newDamageSpec { potency := (← getPotency table env name) })
    timing_spec := (← newTimingSpec {
      base_cast_time := (.int 0)
      animation_lock := (.int 650)
      application_delay := (.int 1830) })
    has_aoe := (.bool true)
    aoe_dropoff := (.float (6 / 10)) })

/-- class_skills/caster/rdm.py:573-611 `verthunder_iii` -/
def verthunder_iii (env : Env) : Py PyVal := do
  let name : PyVal := (.str "Verthunder III")
  let verthunder_3_damage_follow_up : PyVal := (← newFollowUp {
    skill := (← newSkill {
      name := name
      damage_spec := (← newDamageSpec { potency := (← getPotency table env name) }) })
    delay_after_parent_application := (.int 760) })
  return (← newSkill {
    name := name
    is_GCD := (.bool true)
    timing_spec := (mkDict [
      ((.str SimConsts.DEFAULT_CONDITION), (← newTimingSpec {
        base_cast_time := (.int 5000)
        animation_lock := (← attr_rdm_caster_tax env)
        application_delay := (.int 0) })),
      ((.str "Dualcast"), (← newTimingSpec {
        base_cast_time := (.int 0)
        animation_lock := (.int 650)
        application_delay := (.int 0) })),
      ((.str "Acceleration"), (← newTimingSpec {
        base_cast_time := (.int 0)
        animation_lock := (.int 650)
        application_delay := (.int 0) })),
      ((.str "Acceleration, Dualcast"), (← newTimingSpec {
        base_cast_time := (.int 0)
        animation_lock := (.int 650)
        application_delay := (.int 0) }))])
    follow_up_skills := (mkDict [
      ((.str SimConsts.DEFAULT_CONDITION), (.tuple [verthunder_3_damage_follow_up, (← get_dualcast_follow_up env)])),
      ((.str "Dualcast"), (.tuple [verthunder_3_damage_follow_up])),
      ((.str "Acceleration"), (.tuple [verthunder_3_damage_follow_up])),
      ((.str "Acceleration, Dualcast"), (.tuple [verthunder_3_damage_follow_up]))]) })

/-- class_skills/caster/rdm.py:613-651 `veraero_iii` -/
def veraero_iii (env : Env) : Py PyVal := do
  let name : PyVal := (.str "Veraero III")
  let veraero_3_damage_follow_up : PyVal := (← newFollowUp {
    skill := (← newSkill {
      name := name
      damage_spec := (← newDamageSpec { potency := (← getPotency table env name) }) })
    delay_after_parent_application := (.int 760) })
  return (← newSkill {
    name := name
    is_GCD := (.bool true)
    timing_spec := (mkDict [
      ((.str SimConsts.DEFAULT_CONDITION), (← newTimingSpec {
        base_cast_time := (.int 5000)
        animation_lock := (← attr_rdm_caster_tax env)
        application_delay := (.int 0) })),
      ((.str "Dualcast"), (← newTimingSpec {
        base_cast_time := (.int 0)
        animation_lock := (.int 650)
        application_delay := (.int 0) })),
      ((.str "Acceleration"), (← newTimingSpec {
        base_cast_time := (.int 0)
        animation_lock := (.int 650)
        application_delay := (.int 0) })),
      ((.str "Acceleration, Dualcast"), (← newTimingSpec {
        base_cast_time := (.int 0)
        animation_lock := (.int 650)
        application_delay := (.int 0) }))])
    follow_up_skills := (mkDict [
      ((.str SimConsts.DEFAULT_CONDITION), (.tuple [veraero_3_damage_follow_up, (← get_dualcast_follow_up env)])),
      ((.str "Dualcast"), (.tuple [veraero_3_damage_follow_up])),
      ((.str "Acceleration"), (.tuple [veraero_3_damage_follow_up])),
      ((.str "Acceleration, Dualcast"), (.tuple [veraero_3_damage_follow_up]))]) })

/-- class_skills/caster/rdm.py:653-666 `resolution` -/
def resolution (env : Env) : Py PyVal := do
  let name : PyVal := (.str "Resolution")
  return (← newSkill {
    name := name
    is_GCD := (.bool true)
    combo_spec := (.tuple [(← newComboSpec { combo_actions := (.tuple [(.str "Scorch")]) })])
    damage_spec := (← newDamageSpec { potency := (← getPotency table env name) })
    timing_spec := (← newTimingSpec {
      base_cast_time := (.int 0)
      animation_lock := (.int 650)
      application_delay := (.int 1560) })
    has_aoe := (.bool true)
    aoe_dropoff := (.float (6 / 10)) })

/-- class_skills/caster/rdm.py:668-683 `vice_of_thorns` -/
def vice_of_thorns (env : Env) : Py PyVal := do
  if (env.lt .p70 || decide (env.level < 92)) then
    return .none
  let name : PyVal := (.str "Vice of Thorns")
  return (← newSkill {
    name := name
    is_GCD := (.bool false)
    damage_spec := (← newDamageSpec { potency := (← getPotency table env name) })
    timing_spec := (← newTimingSpec {
      base_cast_time := (.int 0)
      animation_lock := (.int 650)
      application_delay := (.int 800) })
    status_effect_denylist := (.tuple [(.str "Manafication"), (.str "Embolden")])
    has_aoe := (.bool true)
    aoe_dropoff := (.float (6 / 10)) })

/-- class_skills/caster/rdm.py:685-714 `grand_impact` -/
def grand_impact (env : Env) : Py PyVal := do
  if (env.lt .p70 || decide (env.level < 96)) then
    return .none
  let name : PyVal := (.str "Grand Impact")
  return (← newSkill {
    name := name
    is_GCD := (.bool true)
    damage_spec := (mkDict [
      ((.str SimConsts.DEFAULT_CONDITION), (← newDamageSpec { potency := (← getPotency table env name) }))])
    timing_spec := (mkDict [
      ((.str SimConsts.DEFAULT_CONDITION), (← newTimingSpec {
        base_cast_time := (.int 5000)
        animation_lock := (← attr_rdm_caster_tax env)
        application_delay := (.int 1559) })),
      ((.str "Dualcast"), (← newTimingSpec {
        base_cast_time := (.int 0)
        animation_lock := (.int 650)
        application_delay := (.int 1550) }))])
    follow_up_skills := (mkDict [
      ((.str SimConsts.DEFAULT_CONDITION), (.tuple [(← get_dualcast_follow_up env)])),
      ((.str "Dualcast"), (.tuple []))])
    has_aoe := (.bool true)
    aoe_dropoff := (.float (6 / 10)) })

/-- class_skills/caster/rdm.py:716-731 `prerefulgence` -/
def prerefulgence (env : Env) : Py PyVal := do
  if (env.lt .p70 || decide (env.level < 100)) then
    return .none
  let name : PyVal := (.str "Prefulgence")
  return (← newSkill {
    name := name
    is_GCD := (.bool false)
    damage_spec := (← newDamageSpec { potency := (← getPotency table env name) })
    timing_spec := (← newTimingSpec {
      base_cast_time := (.int 0)
      animation_lock := (.int 650)
      application_delay := (.int 1420) })
    status_effect_denylist := (.tuple [(.str "Manafication")])
    has_aoe := (.bool true)
    aoe_dropoff := (.float (6 / 10)) })

/-- class_skills/caster/rdm.py:733-747 `enchanted_riposte` -/
def enchanted_riposte (env : Env) : Py PyVal := do
  let name : PyVal := (.str "Enchanted Riposte")
  return (← newSkill {
    name := name
    is_GCD := (.bool true)
    damage_spec := (← newDamageSpec { potency := (← getPotency table env name) })
    combo_spec := (.tuple [(← newComboSpec {})])
    timing_spec := (← newTimingSpec {
      base_cast_time := (.int 0)
      gcd_base_recast_time := (.int 1500)
      animation_lock := (.int 650)
      application_delay := (.int 630) }) })

/-- class_skills/caster/rdm.py:749-770 `enchanted_zwerchhau` -/
def enchanted_zwerchhau (env : Env) : Py PyVal := do
  let name : PyVal := (.str "Enchanted Zwerchhau")
  return (← newSkill {
    name := name
    is_GCD := (.bool true)
    combo_spec := (.tuple [
      (← newComboSpec {
        combo_actions := (.tuple [(.str "Riposte"), (.str "Enchanted Riposte")]) })])
    damage_spec := (mkDict [
      ((.str SimConsts.DEFAULT_CONDITION), (← newDamageSpec { potency := (← getPotency table env name) })),
      ((.str "No Combo"), (← newDamageSpec { potency := (← getPotencyNoCombo table env name) }))])
    timing_spec := (← newTimingSpec {
      base_cast_time := (.int 0)
      gcd_base_recast_time := (.int 1500)
      animation_lock := (.int 650)
      application_delay := (.int 630) }) })

/-- class_skills/caster/rdm.py:772-793 `enchanted_redoublement` -/
def enchanted_redoublement (env : Env) : Py PyVal := do
  let name : PyVal := (.str "Enchanted Redoublement")
  return (← newSkill {
    name := name
    is_GCD := (.bool true)
    combo_spec := (.tuple [(← newComboSpec { combo_actions := (.tuple [(.str "Enchanted Zwerchhau")]) })])
    damage_spec := (mkDict [
      ((.str SimConsts.DEFAULT_CONDITION), (← newDamageSpec { potency := (← getPotency table env name) })),
      ((.str "No Combo"), (← newDamageSpec { potency := (← getPotencyNoCombo table env name) }))])
    timing_spec := (← newTimingSpec {
      base_cast_time := (.int 0)
      gcd_base_recast_time := (.int 2200)
      animation_lock := (.int 650)
      application_delay := (.int 630) }) })

/-- class_skills/caster/rdm.py:795-812 `enchanted_moulinet` -/
def enchanted_moulinet (env : Env) : Py PyVal := do
  let name : PyVal := (.str "Enchanted Moulinet")
  return (← newSkill {
    name := name
    combo_spec := (← ifExp (env.ge .p70)
      (do return (.tuple [(← newComboSpec { combo_group := (.int 1) })]))
      (.ok (.tuple [])))
    is_GCD := (.bool true)
    damage_spec := (← newDamageSpec { potency := (← getPotency table env name) })
    timing_spec := (← newTimingSpec {
      base_cast_time := (.int 0)
      gcd_base_recast_time := (.int 1500)
      animation_lock := (.int 650)
      application_delay := (.int 800) })
    has_aoe := (.bool true) })

/-- class_skills/caster/rdm.py:814-833 `enchanted_moulinet_deux` -/
def enchanted_moulinet_deux (env : Env) : Py PyVal := do
  if env.lt .p70 then
    return .none
  let name : PyVal := (.str "Enchanted Moulinet Deux")
  return (← newSkill {
    name := name
    is_GCD := (.bool true)
    combo_spec := (.tuple [
      (← newComboSpec {
        combo_group := (.int 1)
        combo_actions := (.tuple [(.str "Enchanted Moulinet")]) })])
    damage_spec := (← newDamageSpec { potency := (← getPotency table env name) })
    timing_spec := (← newTimingSpec {
      base_cast_time := (.int 0)
      gcd_base_recast_time := (.int 1500)
      animation_lock := (.int 650)
      application_delay := (.int 800) })
    has_aoe := (.bool true) })

/-- class_skills/caster/rdm.py:835-852 `enchanted_moulinet_trois` -/
def enchanted_moulinet_trois (env : Env) : Py PyVal := do
  if env.lt .p70 then
    return .none
  let name : PyVal := (.str "Enchanted Moulinet Trois")
  return (← newSkill {
    name := name
    is_GCD := (.bool true)
    combo_spec := (.tuple [
      (← newComboSpec {
        combo_group := (.int 1)
        combo_actions := (.tuple [(.str "Enchanted Deux")]) })])
    damage_spec := (← newDamageSpec { potency := (← getPotency table env name) })
    timing_spec := (← newTimingSpec {
      base_cast_time := (.int 0)
      gcd_base_recast_time := (.int 1500)
      animation_lock := (.int 650)
      application_delay := (.int 800) })
    has_aoe := (.bool true) })

/-- class_skills/caster/rdm.py:854-864 `enchanted_reprise` -/
def enchanted_reprise (env : Env) : Py PyVal := do
  let name : PyVal := (.str "Enchanted Reprise")
  return (← newSkill {
    name := name
    is_GCD := (.bool true)
    damage_spec := (← newDamageSpec { potency := (← getPotency table env name) })
    timing_spec := (← newTimingSpec {
      base_cast_time := (.int 0)
      animation_lock := (.int 650)
      application_delay := (.int 650) }) })

/-- class_skills/caster/rdm.py:870-895 `swiftcast` -/
def swiftcast (_env : Env) : Py PyVal := do
  let name : PyVal := (.str "Swiftcast")
  return (← newSkill {
    name := name
    is_GCD := (.bool false)
    timing_spec := (← instantTimingSpec)
    buff_spec := (← newStatusEffectSpec {
      flat_cast_time_reduction := (.inf)
      duration := (← PyVal.mul (.int 10) (.int 1000))
      num_uses := (.int 1)
      skill_allowlist := (.tuple [
        (.str "Verthunder II"), (.str "Veraero II"), (.str "Verfire"), (.str "Verstone"),
        (.str "Vercure"), (.str "Jolt II"), (.str "Jolt III"), (.str "Verraise"), (.str "Impact"),
        (.str "Verthunder III"), (.str "Veraero III")]) }) })

/-- class_skills/caster/rdm.py:897-910 `acceleration` -/
def acceleration (_env : Env) : Py PyVal := do
  let name : PyVal := (.str "Acceleration")
  return (← newSkill {
    name := name
    is_GCD := (.bool false)
    timing_spec := (← instantTimingSpec)
    buff_spec := (← newStatusEffectSpec {
      add_to_skill_modifier_condition := (.bool true)
      duration := (← PyVal.mul (.int 20) (.int 1000))
      num_uses := (.int 1)
      skill_allowlist := (.tuple [(.str "Impact"), (.str "Verthunder III"), (.str "Veraero III")]) }) })

/-- class_skills/caster/rdm.py:912-923 `verraise` -/
def verraise (env : Env) : Py PyVal := do
  let name : PyVal := (.str "Verraise")
  return (← newSkill {
    name := name
    is_GCD := (.bool true)
    timing_spec := (← newTimingSpec {
      base_cast_time := (← PyVal.mul (.int 10) (.int 1000))
      gcd_base_recast_time := (.int 2500)
      animation_lock := (← attr_rdm_caster_tax env) }) })

/-- class_skills/caster/rdm.py:925-936 `vercure` -/
def vercure (env : Env) : Py PyVal := do
  let name : PyVal := (.str "Vercure")
  return (← newSkill {
    name := name
    is_GCD := (.bool true)
    timing_spec := (← newTimingSpec {
      base_cast_time := (.int 2000)
      gcd_base_recast_time := (.int 2500)
      animation_lock := (← attr_rdm_caster_tax env) }) })

/-- class_skills/caster/rdm.py:18-936 `RdmSkills`; the methods in the order of `dir`. -/
def job (env : Env) : JobClass where
  jobClass := "RDM"
  init := do
    let _ ← attr_rdm_caster_tax env
  priority := get_status_effect_priority env
  comboBreakers := get_combo_breakers env
  skillMethods := [
    acceleration env,
    auto env,
    contre_sixte env,
    corps_a_corps env,
    displacement env,
    embolden env,
    enchanted_moulinet env,
    enchanted_moulinet_deux env,
    enchanted_moulinet_trois env,
    enchanted_redoublement env,
    enchanted_reprise env,
    enchanted_riposte env,
    enchanted_zwerchhau env,
    engagement env,
    fleche env,
    grand_impact env,
    impact env,
    jolt_ii env,
    jolt_iii env,
    manafication env,
    moulinet env,
    prerefulgence env,
    redoublement env,
    reprise env,
    resolution env,
    riposte env,
    scorch env,
    swiftcast env,
    veraero_ii env,
    veraero_iii env,
    vercure env,
    verfire env,
    verflare env,
    verholy env,
    verraise env,
    verstone env,
    verthunder_ii env,
    verthunder_iii env,
    vice_of_thorns env,
    zwerchhau env]

end Ama.GameData.Rdm
