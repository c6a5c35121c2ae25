import Verif.Model.GameData.Values

/-!
# PLD

Model of `simulator/game_data/class_skills/tank/pld.py` and `simulator/game_data/class_skills/tank/pld_data.py`, written by
`tools/translate.py`: one function per method.  Paths in the comments are relative to
`simulator/game_data`.
-/

namespace Ama.GameData.Pld

open PyVal

/-- class_skills/tank/pld_data.py:7-128 `ALL_DATA` -/
def table : Table := [
  ("Fast Blade", [
    (90, [("potency", [(.p655, .ok (.int 200))])]),
    (100, [("potency", [(.p70, .ok (.int 220))])])]),
  ("Riot Blade", [
    (90, [
      ("potency", [(.p655, .ok (.int 300))]),
      ("potency_no_combo", [(.p655, .ok (.int 140))])]),
    (100, [
      ("potency", [(.p70, .ok (.int 330))]),
      ("potency_no_combo", [(.p70, .ok (.int 170))])])]),
  ("Total Eclipse", [
    (90, [("potency", [(.p655, .ok (.int 100))])]),
    (100, [("potency", [(.p70, .ok (.int 100))])])]),
  ("Shield Bash", [
    (90, [("potency", [(.p655, .ok (.int 100))])]),
    (100, [("potency", [(.p70, .ok (.int 100))])])]),
  ("Shield Lob", [
    (90, [("potency", [(.p655, .ok (.int 100))])]),
    (100, [("potency", [(.p70, .ok (.int 100))])])]),
  ("Prominence", [
    (90, [
      ("potency", [(.p655, .ok (.int 170))]),
      ("potency_no_combo", [(.p655, .ok (.int 100))])]),
    (100, [
      ("potency", [(.p70, .ok (.int 170))]),
      ("potency_no_combo", [(.p70, .ok (.int 100))])])]),
  ("Circle of Scorn (dot)", [
    (90, [("potency", [(.p655, .ok (.int 30))])]),
    (100, [("potency", [(.p70, .ok (.int 30))])])]),
  ("Circle of Scorn", [
    (90, [("potency", [(.p655, .ok (.int 140))])]),
    (100, [("potency", [(.p70, .ok (.int 140))])])]),
  ("Goring Blade", [
    (90, [("potency", [(.p655, .ok (.int 700))])]),
    (100, [("potency", [(.p70, .ok (.int 700))])])]),
  ("Royal Authority", [
    (90, [
      ("potency", [(.p655, .ok (.int 400))]),
      ("potency_no_combo", [(.p655, .ok (.int 140))])]),
    (100, [
      ("potency", [(.p70, .ok (.int 440)), (.p705, .ok (.int 460))]),
      ("potency_no_combo", [(.p70, .ok (.int 180)), (.p705, .ok (.int 200))])])]),
  ("Holy Spirit", [
    (90, [
      ("potency", [(.p655, .ok (.int 350))]),
      ("potency_divine_might", [(.p655, .ok (.int 450))]),
      ("potency_req", [(.p655, .ok (.int 650))]),
      ("potency_divine_might_req", [(.p655, .ok (.int 450))])]),
    (100, [
      ("potency", [(.p70, .ok (.int 370)), (.p705, .ok (.int 400))]),
      ("potency_divine_might", [(.p70, .ok (.int 470)), (.p705, .ok (.int 500))]),
      ("potency_req", [(.p70, .ok (.int 670)), (.p705, .ok (.int 700))]),
      ("potency_divine_might_req", [(.p70, .ok (.int 470)), (.p705, .ok (.int 500))])])]),
  ("Requiescat", [
    (90, [("potency", [(.p655, .ok (.int 320))])]),
    (100, [("potency", [(.p70, .ok (.int 320))])])]),
  ("Holy Circle", [
    (90, [
      ("potency", [(.p655, .ok (.int 100))]),
      ("potency_divine_might", [(.p655, .ok (.int 200))]),
      ("potency_req", [(.p655, .ok (.int 300))]),
      ("potency_divine_might_req", [(.p655, .ok (.int 200))])]),
    (100, [
      ("potency", [(.p70, .ok (.int 100))]),
      ("potency_divine_might", [(.p70, .ok (.int 200))]),
      ("potency_req", [(.p70, .ok (.int 300))]),
      ("potency_divine_might_req", [(.p70, .ok (.int 200))])])]),
  ("Intervene", [
    (90, [("potency", [(.p655, .ok (.int 150))])]),
    (100, [("potency", [(.p70, .ok (.int 150))])])]),
  ("Atonement", [
    (90, [("potency", [(.p655, .ok (.int 400))])]),
    (100, [("potency", [(.p70, .ok (.int 440)), (.p705, .ok (.int 460))])])]),
  ("Supplication", [
    (90, [("potency", [(.p70, .ok (.int 420)), (.p705, .ok (.int 460))])]),
    (100, [("potency", [(.p70, .ok (.int 460)), (.p705, .ok (.int 500))])])]),
  ("Sepulchre", [
    (90, [("potency", [(.p70, .ok (.int 380)), (.p705, .ok (.int 440))])]),
    (100, [("potency", [(.p70, .ok (.int 480)), (.p705, .ok (.int 540))])])]),
  ("Confiteor", [
    (90, [("potency", [(.p655, .ok (.int 420))]), ("potency_req", [(.p655, .ok (.int 920))])]),
    (100, [
      ("potency", [(.p70, .ok (.int 440)), (.p705, .ok (.int 500))]),
      ("potency_req", [(.p70, .ok (.int 940)), (.p705, .ok (.int 1000))])])]),
  ("Expiacion", [
    (90, [("potency", [(.p655, .ok (.int 450))])]),
    (100, [("potency", [(.p70, .ok (.int 450))])])]),
  ("Blade of Faith", [
    (90, [("potency", [(.p655, .ok (.int 220))]), ("potency_req", [(.p655, .ok (.int 720))])]),
    (100, [
      ("potency", [(.p70, .ok (.int 240)), (.p705, .ok (.int 260))]),
      ("potency_req", [(.p70, .ok (.int 740)), (.p705, .ok (.int 760))])])]),
  ("Blade of Truth", [
    (90, [("potency", [(.p655, .ok (.int 320))]), ("potency_req", [(.p655, .ok (.int 820))])]),
    (100, [
      ("potency", [(.p70, .ok (.int 340)), (.p705, .ok (.int 380))]),
      ("potency_req", [(.p70, .ok (.int 840)), (.p705, .ok (.int 880))])])]),
  ("Blade of Valor", [
    (90, [("potency", [(.p655, .ok (.int 420))]), ("potency_req", [(.p655, .ok (.int 920))])]),
    (100, [
      ("potency", [(.p70, .ok (.int 440)), (.p705, .ok (.int 500))]),
      ("potency_req", [(.p70, .ok (.int 940)), (.p705, .ok (.int 1000))])])]),
  ("Blade of Honor", [(100, [("potency", [(.p70, .ok (.int 1000))])])]),
  ("Imperator", [(100, [("potency", [(.p70, .ok (.int 580))])])])]

/-- class_skills/tank/pld.py:23-24 `get_status_effect_priority` -/
def get_status_effect_priority (_env : Env) : Py PyVal := do
  return (.tuple [(.str "Divine Might"), (.str "Requiescat")])

/-- class_skills/tank/pld.py:26-30 `get_combo_breakers` -/
def get_combo_breakers (_env : Env) : Py PyVal := do
  let combo_breakers : PyVal := (.tuple [(.tuple [(.int 1), (.tuple [(.int 0)])])])
  return combo_breakers

/-- class_skills/tank/pld.py:32-52 `__req_charges_follow_up` -/
def req_charges_follow_up (_env : Env) : Py PyVal := do
  let name : PyVal := (.str "Requiescat")
  return (← newFollowUp {
    skill := (← newSkill {
      name := name
      buff_spec := (← newStatusEffectSpec {
        add_to_skill_modifier_condition := (.bool true)
        num_uses := (.int 4)
        duration := (← PyVal.mul (.int 30) (.int 1000))
        skill_allowlist := (.tuple [
          (.str "Holy Spirit"), (.str "Holy Circle"), (.str "Confiteor"), (.str "Blade of Faith"),
          (.str "Blade of Truth"), (.str "Blade of Valor")]) }) })
    delay_after_parent_application := (.int 0) })

/-- class_skills/tank/pld.py:54-68 `__divine_might_follow_up` -/
def divine_might_follow_up (_env : Env) : Py PyVal := do
  return (← newFollowUp {
    skill := (← newSkill {
      name := (.str "Divine Might")
      is_GCD := (.bool false)
      buff_spec := (← newStatusEffectSpec {
        add_to_skill_modifier_condition := (.bool true)
        num_uses := (.int 1)
        duration := (← PyVal.mul (.int 30) (.int 1000))
        skill_allowlist := (.tuple [(.str "Holy Spirit"), (.str "Holy Circle")]) }) })
    delay_after_parent_application := (.int 0)
    primary_target_only := (.bool true) })

/-- class_skills/tank/pld.py:70-80 `auto` -/
def auto (_env : Env) : Py PyVal := do
  let name : PyVal := (.str "Auto")
  return (← newSkill {
    name := name
    is_GCD := (.bool false)
    timing_spec := (← autoTimingSpec)
    damage_spec := (← newDamageSpec {
      potency := (.int 90)
      damage_class := (.damageClass .auto)
      trait_damage_mult_override := (.int 1) }) })

/-- class_skills/tank/pld.py:82-93 `fast_blade` -/
def fast_blade (env : Env) : Py PyVal := do
  let name : PyVal := (.str "Fast Blade")
  return (← newSkill {
    name := name
    is_GCD := (.bool true)
    combo_spec := (.tuple [(← newComboSpec {})])
    damage_spec := (← newDamageSpec { potency := (← getPotency table env name) })
    timing_spec := (← newTimingSpec {
      base_cast_time := (.int 0)
      animation_lock := (.int 650)
      application_delay := (.int 623) }) })

/-- class_skills/tank/pld.py:95-105 `fight_or_flight` -/
def fight_or_flight (_env : Env) : Py PyVal := do
  let name : PyVal := (.str "Fight or Flight")
  return (← newSkill {
    name := name
    is_GCD := (.bool false)
    buff_spec := (← newStatusEffectSpec { duration := (.int 20000), damage_mult := (.float (125 / 100)) })
    timing_spec := (← newTimingSpec {
      base_cast_time := (.int 0)
      animation_lock := (.int 650)
      application_delay := (.int 620) }) })

/-- class_skills/tank/pld.py:107-125 `riot_blade` -/
def riot_blade (env : Env) : Py PyVal := do
  let name : PyVal := (.str "Riot Blade")
  return (← newSkill {
    name := name
    is_GCD := (.bool true)
    damage_spec := (mkDict [
      ((.str SimConsts.DEFAULT_CONDITION), (← newDamageSpec { potency := (← getPotency table env name) })),
      ((.str "No Combo"), (← newDamageSpec { potency := (← getPotencyNoCombo table env name) }))])
    combo_spec := (.tuple [(← newComboSpec { combo_actions := (.tuple [(.str "Fast Blade")]) })])
    timing_spec := (← newTimingSpec {
      base_cast_time := (.int 0)
      animation_lock := (.int 650)
      application_delay := (.int 758) }) })

/-- class_skills/tank/pld.py:127-139 `total_eclipse` -/
def total_eclipse (env : Env) : Py PyVal := do
  let name : PyVal := (.str "Total Eclipse")
  return (← newSkill {
    name := name
    is_GCD := (.bool true)
    combo_spec := (.tuple [(← newComboSpec {})])
    damage_spec := (← newDamageSpec { potency := (← getPotency table env name) })
    timing_spec := (← newTimingSpec {
      base_cast_time := (.int 0)
      animation_lock := (.int 650)
      application_delay := (.int 758) })
    has_aoe := (.bool true) })

/-- class_skills/tank/pld.py:141-151 `shield_bash` -/
def shield_bash (env : Env) : Py PyVal := do
  let name : PyVal := (.str "Shield Bash")
  return (← newSkill {
    name := name
    is_GCD := (.bool true)
    damage_spec := (← newDamageSpec { potency := (← getPotency table env name) })
    timing_spec := (← newTimingSpec {
      base_cast_time := (.int 0)
      animation_lock := (.int 650)
      application_delay := (.int 446) }) })

/-- class_skills/tank/pld.py:153-163 `shield_lob` -/
def shield_lob (env : Env) : Py PyVal := do
  let name : PyVal := (.str "Shield Lob")
  return (← newSkill {
    name := name
    is_GCD := (.bool true)
    damage_spec := (← newDamageSpec { potency := (← getPotency table env name) })
    timing_spec := (← newTimingSpec {
      base_cast_time := (.int 0)
      animation_lock := (.int 650)
      application_delay := (.int 889) }) })

/-- class_skills/tank/pld.py:165-201 `prominence` -/
def prominence (env : Env) : Py PyVal := do
  let name : PyVal := (.str "Prominence")
  let promimence_follow_up : PyVal := (← newFollowUp {
    skill := (← newSkill {
      name := name
      damage_spec := (← newDamageSpec { potency := (← getPotency table env name) }) })
    delay_after_parent_application := (.int 623)
    primary_target_only := (.bool false) })
  let promimence_no_combo_follow_up : PyVal := (← newFollowUp {
    skill := (← newSkill {
      name := name
      damage_spec := (← newDamageSpec { potency := (← getPotencyNoCombo table env name) }) })
    delay_after_parent_application := (.int 623)
    primary_target_only := (.bool false) })
  return (← newSkill {
    name := name
    is_GCD := (.bool true)
    combo_spec := (.tuple [(← newComboSpec { combo_actions := (.tuple [(.str "Total Eclipse")]) })])
    timing_spec := (← newTimingSpec {
      base_cast_time := (.int 0)
      animation_lock := (.int 650)
      application_delay := (.int 623) })
    follow_up_skills := (mkDict [
      ((.str SimConsts.DEFAULT_CONDITION), (.tuple [promimence_follow_up, (← divine_might_follow_up env)])),
      ((.str "No Combo"), (.tuple [promimence_no_combo_follow_up]))])
    has_aoe := (.bool true) })

/-- class_skills/tank/pld.py:203-233 `circle_of_scorn` -/
def circle_of_scorn (env : Env) : Py PyVal := do
  let mut name : PyVal := .unbound
  name := (.str "Circle of Scorn (dot)")
  let circle_of_scorn_dot_pld : PyVal := (← newSkill {
    name := name
    is_GCD := (.bool false)
    damage_spec := (← newDamageSpec {
      potency := (← getPotency table env name)
      damage_class := (.damageClass .physicalDot) }) })
  name := (.str "Circle of Scorn")
  return (← newSkill {
    name := name
    is_GCD := (.bool false)
    timing_spec := (← newTimingSpec {
      base_cast_time := (.int 0)
      animation_lock := (.int 650)
      application_delay := (.int 1023) })
    damage_spec := (← newDamageSpec { potency := (← getPotency table env name) })
    follow_up_skills := (.tuple [
      (← newFollowUp {
        skill := circle_of_scorn_dot_pld
        delay_after_parent_application := (.int 0)
        dot_duration := (← PyVal.mul (.int 15) (.int 1000))
        snapshot_buffs_with_parent := (.bool true)
        snapshot_debuffs_with_parent := (.bool true) })])
    has_aoe := (.bool true) })

/-- class_skills/tank/pld.py:235-245 `goring_blade` -/
def goring_blade (env : Env) : Py PyVal := do
  let name : PyVal := (.str "Goring Blade")
  return (← newSkill {
    name := name
    is_GCD := (.bool true)
    damage_spec := (← newDamageSpec { potency := (← getPotency table env name) })
    timing_spec := (← newTimingSpec {
      base_cast_time := (.int 0)
      animation_lock := (.int 650)
      application_delay := (.int 534) }) })

/-- class_skills/tank/pld.py:247-269 `royal_authority` -/
def royal_authority (env : Env) : Py PyVal := do
  let name : PyVal := (.str "Royal Authority")
  return (← newSkill {
    name := name
    is_GCD := (.bool true)
    damage_spec := (mkDict [
      ((.str SimConsts.DEFAULT_CONDITION), (← newDamageSpec { potency := (← getPotency table env name) })),
      ((.str "No Combo"), (← newDamageSpec { potency := (← getPotencyNoCombo table env name) }))])
    combo_spec := (.tuple [(← newComboSpec { combo_actions := (.tuple [(.str "Riot Blade")]) })])
    timing_spec := (← newTimingSpec {
      base_cast_time := (.int 0)
      animation_lock := (.int 650)
      application_delay := (.int 578) })
    follow_up_skills := (mkDict [
      ((.str SimConsts.DEFAULT_CONDITION), (.tuple [(← divine_might_follow_up env)])),
      ((.str "No Combo"), (.tuple []))]) })

/-- class_skills/tank/pld.py:271-321 `holy_spirit` -/
def holy_spirit (env : Env) : Py PyVal := do
  let name : PyVal := (.str "Holy Spirit")
  return (← newSkill {
    name := name
    is_GCD := (.bool true)
    damage_spec := (mkDict [
      ((.str SimConsts.DEFAULT_CONDITION), (← newDamageSpec { potency := (← getSkillData table env name (.str "potency")) })),
      ((.str "Divine Might"), (← newDamageSpec {
        potency := (← getSkillData table env name (.str "potency_divine_might")) })),
      ((.str "Requiescat"), (← newDamageSpec { potency := (← getSkillData table env name (.str "potency_req")) })),
      ((.str "Divine Might, Requiescat"), (← newDamageSpec {
        potency := (← getSkillData table env name (.str "potency_divine_might_req")) }))])
    timing_spec := (mkDict [
      ((.str SimConsts.DEFAULT_CONDITION), (← newTimingSpec {
        base_cast_time := (.int 1500)
        animation_lock := (.int 100)
        application_delay := (.int 758)
        affected_by_speed_stat := (.bool false) })),
      ((.str "Divine Might"), (← newTimingSpec {
        base_cast_time := (.int 0)
        animation_lock := (.int 100)
        application_delay := (.int 758)
        affected_by_speed_stat := (.bool false) })),
      ((.str "Requiescat"), (← newTimingSpec {
        base_cast_time := (.int 0)
        animation_lock := (.int 100)
        application_delay := (.int 758)
        affected_by_speed_stat := (.bool false) })),
      ((.str "Divine Might, Requiescat"), (← newTimingSpec {
        base_cast_time := (.int 0)
        animation_lock := (.int 100)
        application_delay := (.int 758)
        affected_by_speed_stat := (.bool false) }))]) })

/-- class_skills/tank/pld.py:323-337 `requiescat` -/
def requiescat (env : Env) : Py PyVal := do
  if decide (env.level ≥ 96) then
    return .none
  let name : PyVal := (.str "Requiescat")
  return (← newSkill {
    name := name
    is_GCD := (.bool false)
    damage_spec := (← newDamageSpec { potency := (← getPotency table env name) })
    timing_spec := (← newTimingSpec {
      base_cast_time := (.int 0)
      animation_lock := (.int 650)
      application_delay := (.int 623) })
    follow_up_skills := (.tuple [(← req_charges_follow_up env)]) })

/-- class_skills/tank/pld.py:339-369 `imperator` -/
def imperator (env : Env) : Py PyVal := do
  if decide (env.level < 96) then
    return .none
  let name : PyVal := (.str "Imperator")
  let imperator_damage_follow_up : PyVal := (← newFollowUp {
    skill := (← newSkill {
      name := name
      damage_spec := (mkDict [
        ((.str SimConsts.DEFAULT_CONDITION), (← newDamageSpec { potency := (← getPotency table env name) }))])
      has_aoe := (.bool true)
      aoe_dropoff := (.float (5 / 10)) })
    delay_after_parent_application := (.int 1290)
    primary_target_only := (.bool false) })
  return (← newSkill {
    name := name
    is_GCD := (.bool false)
    timing_spec := (← newTimingSpec {
      base_cast_time := (.int 0)
      animation_lock := (.int 650)
      application_delay := (.int 0) })
    follow_up_skills := (.tuple [imperator_damage_follow_up, (← req_charges_follow_up env)]) })

/-- class_skills/tank/pld.py:371-422 `holy_circle` -/
def holy_circle (env : Env) : Py PyVal := do
  let name : PyVal := (.str "Holy Circle")
  return (← newSkill {
    name := name
    is_GCD := (.bool true)
    has_aoe := (.bool true)
    damage_spec := (mkDict [
      ((.str SimConsts.DEFAULT_CONDITION), (← newDamageSpec { potency := (← getSkillData table env name (.str "potency")) })),
      ((.str "Divine Might"), (← newDamageSpec {
        potency := (← getSkillData table env name (.str "potency_divine_might")) })),
      ((.str "Requiescat"), (← newDamageSpec { potency := (← getSkillData table env name (.str "potency_req")) })),
      ((.str "Divine Might, Requiescat"), (← newDamageSpec {
        potency := (← getSkillData table env name (.str "potency_divine_might_req")) }))])
    timing_spec := (mkDict [
      ((.str SimConsts.DEFAULT_CONDITION), (← newTimingSpec {
        base_cast_time := (.int 1500)
        animation_lock := (.int 100)
        application_delay := (.int 623)
        affected_by_speed_stat := (.bool false) })),
      ((.str "Divine Might"), (← newTimingSpec {
        base_cast_time := (.int 0)
        animation_lock := (.int 100)
        application_delay := (.int 623)
        affected_by_speed_stat := (.bool false) })),
      ((.str "Requiescat"), (← newTimingSpec {
        base_cast_time := (.int 0)
        animation_lock := (.int 100)
        application_delay := (.int 623)
        affected_by_speed_stat := (.bool false) })),
      ((.str "Divine Might, Requiescat"), (← newTimingSpec {
        base_cast_time := (.int 0)
        animation_lock := (.int 100)
        application_delay := (.int 623)
        affected_by_speed_stat := (.bool false) }))]) })

/-- class_skills/tank/pld.py:424-434 `intervene` -/
def intervene (env : Env) : Py PyVal := do
  let name : PyVal := (.str "Intervene")
  return (← newSkill {
    name := name
    is_GCD := (.bool false)
    damage_spec := (← newDamageSpec { potency := (← getPotency table env name) })
    timing_spec := (← newTimingSpec {
      base_cast_time := (.int 0)
      animation_lock := (.int 650)
      application_delay := (.int 578) }) })

/-- class_skills/tank/pld.py:436-446 `atonement` -/
def atonement (env : Env) : Py PyVal := do
  let name : PyVal := (.str "Atonement")
  return (← newSkill {
    name := name
    is_GCD := (.bool true)
    damage_spec := (← newDamageSpec { potency := (← getPotency table env name) })
    timing_spec := (← newTimingSpec {
      base_cast_time := (.int 0)
      animation_lock := (.int 650)
      application_delay := (.int 1293) }) })

/-- class_skills/tank/pld.py:448-460 `supplication` -/
def supplication (env : Env) : Py PyVal := do
  if env.lt .p70 then
    return .none
  let name : PyVal := (.str "Supplication")
  return (← newSkill {
    name := name
    is_GCD := (.bool true)
    damage_spec := (← newDamageSpec { potency := (← getPotency table env name) })
    timing_spec := (← newTimingSpec {
      base_cast_time := (.int 0)
      animation_lock := (.int 650)
      application_delay := (.int 1160) }) })

/-- class_skills/tank/pld.py:462-474 `sepulchre` -/
def sepulchre (env : Env) : Py PyVal := do
  if env.lt .p70 then
    return .none
  let name : PyVal := (.str "Sepulchre")
  return (← newSkill {
    name := name
    is_GCD := (.bool true)
    damage_spec := (← newDamageSpec { potency := (← getPotency table env name) })
    timing_spec := (← newTimingSpec {
      base_cast_time := (.int 0)
      animation_lock := (.int 650)
      application_delay := (.int 1290) }) })

/-- class_skills/tank/pld.py:476-496 `confiteor` -/
def confiteor (env : Env) : Py PyVal := do
  let name : PyVal := (.str "Confiteor")
  return (← newSkill {
    name := name
    is_GCD := (.bool true)
    combo_spec := (.tuple [(← newComboSpec { combo_group := (.int 1) })])
    damage_spec := (mkDict [
      ((.str SimConsts.DEFAULT_CONDITION), (← newDamageSpec { potency := (← getSkillData table env name (.str "potency")) })),
      ((.str "Requiescat"), (← newDamageSpec { potency := (← getSkillData table env name (.str "potency_req")) }))])
    timing_spec := (← newTimingSpec {
      base_cast_time := (.int 0)
      animation_lock := (.int 650)
      application_delay := (.int 623) })
    has_aoe := (.bool true)
    aoe_dropoff := (.float (5 / 10)) })

/-- class_skills/tank/pld.py:498-514 `expiacion` -/
def expiacion (env : Env) : Py PyVal := do
  let name : PyVal := (.str "Expiacion")
  return (← newSkill {
    name := name
    is_GCD := (.bool false)
    damage_spec := (mkDict [
      ((.str SimConsts.DEFAULT_CONDITION), (← newDamageSpec { potency := (← getPotency table env name) }))])
    timing_spec := (← newTimingSpec {
      base_cast_time := (.int 0)
      animation_lock := (.int 650)
      application_delay := (.int 357) })
    has_aoe := (.bool true)
    aoe_dropoff := (.float (6 / 10)) })

/-- class_skills/tank/pld.py:516-536 `blade_of_faith` -/
def blade_of_faith (env : Env) : Py PyVal := do
  let name : PyVal := (.str "Blade of Faith")
  return (← newSkill {
    name := name
    is_GCD := (.bool true)
    combo_spec := (.tuple [
      (← newComboSpec {
        combo_group := (.int 1)
        combo_actions := (.tuple [(.str "Confiteor")]) })])
    damage_spec := (mkDict [
      ((.str SimConsts.DEFAULT_CONDITION), (← newDamageSpec { potency := (← getSkillData table env name (.str "potency")) })),
      ((.str "Requiescat"), (← newDamageSpec { potency := (← getSkillData table env name (.str "potency_req")) }))])
    timing_spec := (← newTimingSpec {
      base_cast_time := (.int 0)
      animation_lock := (.int 650)
      application_delay := (.int 666) })
    has_aoe := (.bool true)
    aoe_dropoff := (.float (5 / 10)) })

/-- class_skills/tank/pld.py:538-558 `blade_of_truth` -/
def blade_of_truth (env : Env) : Py PyVal := do
  let name : PyVal := (.str "Blade of Truth")
  return (← newSkill {
    name := name
    is_GCD := (.bool true)
    combo_spec := (.tuple [
      (← newComboSpec {
        combo_group := (.int 1)
        combo_actions := (.tuple [(.str "Blade of Faith")]) })])
    damage_spec := (mkDict [
      ((.str SimConsts.DEFAULT_CONDITION), (← newDamageSpec { potency := (← getSkillData table env name (.str "potency")) })),
      ((.str "Requiescat"), (← newDamageSpec { potency := (← getSkillData table env name (.str "potency_req")) }))])
    timing_spec := (← newTimingSpec {
      base_cast_time := (.int 0)
      animation_lock := (.int 650)
      application_delay := (.int 891) })
    has_aoe := (.bool true)
    aoe_dropoff := (.float (5 / 10)) })

/-- class_skills/tank/pld.py:560-580 `blade_of_valor` -/
def blade_of_valor (env : Env) : Py PyVal := do
  let name : PyVal := (.str "Blade of Valor")
  return (← newSkill {
    name := name
    is_GCD := (.bool true)
    combo_spec := (.tuple [
      (← newComboSpec {
        combo_group := (.int 1)
        combo_actions := (.tuple [(.str "Blade of Truth")]) })])
    damage_spec := (mkDict [
      ((.str SimConsts.DEFAULT_CONDITION), (← newDamageSpec { potency := (← getSkillData table env name (.str "potency")) })),
      ((.str "Requiescat"), (← newDamageSpec { potency := (← getSkillData table env name (.str "potency_req")) }))])
    timing_spec := (← newTimingSpec {
      base_cast_time := (.int 0)
      animation_lock := (.int 650)
      application_delay := (.int 891) })
    has_aoe := (.bool true)
    aoe_dropoff := (.float (5 / 10)) })

/-- class_skills/tank/pld.py:582-600 `blade_of_honor` -/
def blade_of_honor (env : Env) : Py PyVal := do
  if decide (env.level < 100) then
    return .none
  let name : PyVal := (.str "Blade of Honor")
  return (← newSkill {
    name := name
    is_GCD := (.bool false)
    damage_spec := (mkDict [
      ((.str SimConsts.DEFAULT_CONDITION), (← newDamageSpec { potency := (← getPotency table env name) }))])
    timing_spec := (← newTimingSpec {
      base_cast_time := (.int 0)
      animation_lock := (.int 650)
      application_delay := (.int 1160) })
    has_aoe := (.bool true)
    aoe_dropoff := (.float (5 / 10)) })

/-- class_skills/tank/pld.py:606-614 `passage_of_arms` -/
def passage_of_arms (_env : Env) : Py PyVal := do
  let name : PyVal := (.str "Passage of Arms")
  return (← newSkill {
    name := name
    is_GCD := (.bool false)
    timing_spec := (← instantTimingSpec)
    channeling_spec := (← newChannelingSpec { duration := (.int 18000) }) })

/-- class_skills/tank/pld.py:616-618 `rampart` -/
def rampart (_env : Env) : Py PyVal := do
  return (← newSkill {
    name := (.str "Rampart")
    is_GCD := (.bool false)
    timing_spec := (← instantTimingSpec) })

/-- class_skills/tank/pld.py:620-622 `provoke` -/
def provoke (_env : Env) : Py PyVal := do
  return (← newSkill {
    name := (.str "Provoke")
    is_GCD := (.bool false)
    timing_spec := (← instantTimingSpec) })

/-- class_skills/tank/pld.py:624-628 `reprisal` -/
def reprisal (_env : Env) : Py PyVal := do
  return (← newSkill {
    name := (.str "Reprisal")
    is_GCD := (.bool false)
    timing_spec := (← instantTimingSpec) })

/-- class_skills/tank/pld.py:630-634 `arms_length` -/
def arms_length (_env : Env) : Py PyVal := do
  return (← newSkill {
    name := (.str "Arm's Length")
    is_GCD := (.bool false)
    timing_spec := (← instantTimingSpec) })

/-- class_skills/tank/pld.py:636-638 `shirk` -/
def shirk (_env : Env) : Py PyVal := do
  return (← newSkill {
    name := (.str "Shirk")
    is_GCD := (.bool false)
    timing_spec := (← instantTimingSpec) })

/-- class_skills/tank/pld.py:17-638 `PldSkills`; the methods in the order of `dir`. -/
def job (env : Env) : JobClass where
  jobClass := "PLD"
  priority := get_status_effect_priority env
  comboBreakers := get_combo_breakers env
  skillMethods := [
    arms_length env,
    atonement env,
    auto env,
    blade_of_faith env,
    blade_of_honor env,
    blade_of_truth env,
    blade_of_valor env,
    circle_of_scorn env,
    confiteor env,
    expiacion env,
    fast_blade env,
    fight_or_flight env,
    goring_blade env,
    holy_circle env,
    holy_spirit env,
    imperator env,
    intervene env,
    passage_of_arms env,
    prominence env,
    provoke env,
    rampart env,
    reprisal env,
    requiescat env,
    riot_blade env,
    royal_authority env,
    sepulchre env,
    shield_bash env,
    shield_lob env,
    shirk env,
    supplication env,
    total_eclipse env]

end Ama.GameData.Pld
