import Verif.Model.GameData.Values

/-!
# MNK

Model of `simulator/game_data/class_skills/melee/mnk.py` and `simulator/game_data/class_skills/melee/mnk_data.py`, written by
`tools/translate.py`: one function per method.  Paths in the comments are relative to
`simulator/game_data`.
-/

namespace Ama.GameData.Mnk

open PyVal

/-- class_skills/melee/mnk_data.py:9-264 `ALL_DATA` -/
def table : Table := [
  ("Demolish (dot)", [(90, [("potency", [(.p655, .ok (.int 70))])])]),
  ("Opo-opo Form", [
    (90, [
      ("allowlist", [
        (.p655, .ok (.tuple [(.str "Bootshine"), (.str "Dragon Kick"), (.str "Shadow of the Destroyer")]))])]),
    (100, [
      ("allowlist", [
        (.p70, .ok (.tuple [
          (.str "Bootshine"), (.str "Dragon Kick"), (.str "Shadow of the Destroyer"),
          (.str "Leaping Opo")]))])])]),
  ("Formless Fist", [
    (90, [
      ("allowlist", [
        (.p655, .ok (.tuple [
          (.str "Bootshine"), (.str "Dragon Kick"), (.str "Shadow of the Destroyer"),
          (.str "True Strike"), (.str "Snap Punch"), (.str "Twin Snakes"), (.str "Demolish"),
          (.str "Rockbreaker"), (.str "Four-point Fury")]))])]),
    (100, [
      ("allowlist", [
        (.p70, .ok (.tuple [
          (.str "Dragon Kick"), (.str "Shadow of the Destroyer"), (.str "Twin Snakes"),
          (.str "Demolish"), (.str "Rockbreaker"), (.str "Four-point Fury"), (.str "Fire's Reply"),
          (.str "Leaping Opo")]))])])]),
  ("Bootshine", [
    (90, [
      ("potency", [(.p655, .ok (.int 210)), (.p70, .ok (.int 220))]),
      ("potency_fury", [(.p70, .ok (.int 420))]),
      ("potency_leaden_fist", [(.p655, .ok (.int 310))])])]),
  ("True Strike", [
    (90, [
      ("potency", [(.p655, .ok (.int 300)), (.p70, .ok (.int 290)), (.p701, .ok (.int 300))]),
      ("potency_fury", [(.p70, .ok (.int 440)), (.p701, .ok (.int 500))])])]),
  ("Snap Punch", [
    (90, [
      ("potency", [(.p655, .ok (.int 310)), (.p70, .ok (.int 360)), (.p701, .ok (.int 330))]),
      ("potency_no_pos", [
        (.p655, .ok (.int 250)),
        (.p70, .ok (.int 300)),
        (.p701, .ok (.int 270))]),
      ("potency_fury", [(.p70, .ok (.int 400)), (.p701, .ok (.int 420))]),
      ("potency_fury_no_pos", [(.p70, .ok (.int 460)), (.p701, .ok (.int 480))])])]),
  ("Twin Snakes", [
    (90, [
      ("potency", [(.p655, .ok (.int 280)), (.p70, .ok (.int 380)), (.p701, .ok (.int 420))])]),
    (100, [("potency", [(.p70, .ok (.int 380)), (.p701, .ok (.int 420))])])]),
  ("Demolish", [
    (90, [
      ("damage_spec", [
        (.p655, do return (mkDict [
          ((.str SimConsts.DEFAULT_CONDITION), (← newDamageSpec { potency := (.int 130) })),
          ((.str "No Positional"), (← newDamageSpec { potency := (.int 70) }))])),
        (.p70, .ok .none)]),
      ("primary_application_delay", [(.p655, .ok (.int 1600))]),
      ("potency", [(.p655, .ok (.int 130)), (.p70, .ok (.int 360)), (.p701, .ok (.int 380))]),
      ("potency_no_pos", [
        (.p655, .ok (.int 70)),
        (.p70, .ok (.int 300)),
        (.p701, .ok (.int 320))])]),
    (100, [
      ("damage_spec", [(.p70, .ok .none)]),
      ("primary_application_delay", [(.p70, .ok (.int 0))]),
      ("potency", [(.p70, .ok (.int 400)), (.p701, .ok (.int 420))]),
      ("potency_no_pos", [(.p70, .ok (.int 340)), (.p701, .ok (.int 360))])])]),
  ("Rockbreaker", [
    (90, [("potency", [(.p655, .ok (.int 130)), (.p701, .ok (.int 150))])]),
    (100, [("potency", [(.p70, .ok (.int 130)), (.p701, .ok (.int 150))])])]),
  ("Four-point Fury", [
    (90, [("potency", [(.p655, .ok (.int 120)), (.p701, .ok (.int 140))])]),
    (100, [("potency", [(.p70, .ok (.int 120)), (.p701, .ok (.int 140))])])]),
  ("Dragon Kick", [
    (90, [("potency", [(.p655, .ok (.int 320)), (.p70, .ok (.int 280))])]),
    (100, [("potency", [(.p70, .ok (.int 320))])])]),
  ("The Forbidden Chakra", [
    (90, [("potency", [(.p655, .ok (.int 340)), (.p70, .ok (.int 400))])]),
    (100, [("potency", [(.p70, .ok (.int 400))])])]),
  ("Elixir Field", [
    (90, [("potency", [(.p655, .ok (.int 600)), (.p70, .ok (.int 800))])]),
    (100, [("potency", [(.p70, .ok (.int 800))])])]),
  ("Celestial Revolution", [
    (90, [("potency", [(.p655, .ok (.int 450)), (.p701, .ok (.int 600))])]),
    (100, [("potency", [(.p70, .ok (.int 450)), (.p701, .ok (.int 600))])])]),
  ("Riddle of Fire", [
    (90, [
      ("damage_mult", [(.p655, .ok (.float (115 / 100)))]),
      ("duration", [
        (.p655, do return (← PyVal.toInt (← PyVal.mul (.float (2072 / 100)) (.int 1000))))])]),
    (100, [
      ("damage_mult", [(.p70, .ok (.float (115 / 100)))]),
      ("duration", [
        (.p70, do return (← PyVal.toInt (← PyVal.mul (.float (2072 / 100)) (.int 1000))))])])]),
  ("Brotherhood", [
    (90, [
      ("damage_mult", [(.p655, .ok (.float (105 / 100)))]),
      ("duration", [
        (.p655, do return (← PyVal.toInt (← PyVal.mul (.float (1495 / 100)) (.int 1000))))])]),
    (100, [
      ("damage_mult", [(.p70, .ok (.float (105 / 100)))]),
      ("duration", [
        (.p70, do return (← PyVal.toInt (← PyVal.mul (.float (1995 / 100)) (.int 1000))))])])]),
  ("Riddle of Wind", [
    (90, [
      ("duration", [
        (.p655, do return (← PyVal.toInt (← PyVal.mul (.float (1578 / 100)) (.int 1000))))])]),
    (100, [
      ("duration", [
        (.p70, do return (← PyVal.toInt (← PyVal.mul (.float (1578 / 100)) (.int 1000))))])])]),
  ("Enlightenment", [
    (90, [("potency", [(.p655, .ok (.int 170)), (.p701, .ok (.int 200))])]),
    (100, [("potency", [(.p70, .ok (.int 170)), (.p701, .ok (.int 200))])])]),
  ("Six-sided Star", [
    (90, [
      ("damage_spec", [
        (.p655, do return (← newDamageSpec { potency := (.int 130) })),
        (.p70, do return (mkDict [
          ((.str SimConsts.DEFAULT_CONDITION), (← newDamageSpec { potency := (← PyVal.add (.int 710) (← PyVal.mul (.int 5) (.int 80))) })),
          ((.str "10 Chakra"), (← newDamageSpec {
            potency := (← PyVal.add (.int 710) (← PyVal.mul (.int 10) (.int 80))) })),
          ((.str "9 Chakra"), (← newDamageSpec { potency := (← PyVal.add (.int 710) (← PyVal.mul (.int 9) (.int 80))) })),
          ((.str "8 Chakra"), (← newDamageSpec { potency := (← PyVal.add (.int 710) (← PyVal.mul (.int 8) (.int 80))) })),
          ((.str "7 Chakra"), (← newDamageSpec { potency := (← PyVal.add (.int 710) (← PyVal.mul (.int 7) (.int 80))) })),
          ((.str "6 Chakra"), (← newDamageSpec { potency := (← PyVal.add (.int 710) (← PyVal.mul (.int 6) (.int 80))) })),
          ((.str "5 Chakra"), (← newDamageSpec { potency := (← PyVal.add (.int 710) (← PyVal.mul (.int 5) (.int 80))) })),
          ((.str "4 Chakra"), (← newDamageSpec { potency := (← PyVal.add (.int 710) (← PyVal.mul (.int 4) (.int 80))) })),
          ((.str "3 Chakra"), (← newDamageSpec { potency := (← PyVal.add (.int 710) (← PyVal.mul (.int 3) (.int 80))) })),
          ((.str "2 Chakra"), (← newDamageSpec { potency := (← PyVal.add (.int 710) (← PyVal.mul (.int 2) (.int 80))) })),
          ((.str "1 Chakra"), (← newDamageSpec { potency := (← PyVal.add (.int 710) (← PyVal.mul (.int 1) (.int 80))) })),
          ((.str "0 Chakra"), (← newDamageSpec { potency := (.int 710) }))]))])]),
    (100, [
      ("damage_spec", [
        (.p70, do return (mkDict [
          ((.str SimConsts.DEFAULT_CONDITION), (← newDamageSpec { potency := (← PyVal.add (.int 780) (← PyVal.mul (.int 5) (.int 80))) })),
          ((.str "10 Chakra"), (← newDamageSpec {
            potency := (← PyVal.add (.int 780) (← PyVal.mul (.int 10) (.int 80))) })),
          ((.str "9 Chakra"), (← newDamageSpec { potency := (← PyVal.add (.int 780) (← PyVal.mul (.int 9) (.int 80))) })),
          ((.str "8 Chakra"), (← newDamageSpec { potency := (← PyVal.add (.int 780) (← PyVal.mul (.int 8) (.int 80))) })),
          ((.str "7 Chakra"), (← newDamageSpec { potency := (← PyVal.add (.int 780) (← PyVal.mul (.int 7) (.int 80))) })),
          ((.str "6 Chakra"), (← newDamageSpec { potency := (← PyVal.add (.int 780) (← PyVal.mul (.int 6) (.int 80))) })),
          ((.str "5 Chakra"), (← newDamageSpec { potency := (← PyVal.add (.int 780) (← PyVal.mul (.int 5) (.int 80))) })),
          ((.str "4 Chakra"), (← newDamageSpec { potency := (← PyVal.add (.int 780) (← PyVal.mul (.int 4) (.int 80))) })),
          ((.str "3 Chakra"), (← newDamageSpec { potency := (← PyVal.add (.int 780) (← PyVal.mul (.int 3) (.int 80))) })),
          ((.str "2 Chakra"), (← newDamageSpec { potency := (← PyVal.add (.int 780) (← PyVal.mul (.int 2) (.int 80))) })),
          ((.str "1 Chakra"), (← newDamageSpec { potency := (← PyVal.add (.int 780) (← PyVal.mul (.int 1) (.int 80))) })),
          ((.str "0 Chakra"), (← newDamageSpec { potency := (.int 780) }))]))])])]),
  ("Shadow of the Destroyer", [
    (90, [("potency", [(.p655, .ok (.int 110)), (.p701, .ok (.int 120))])]),
    (100, [("potency", [(.p70, .ok (.int 110)), (.p701, .ok (.int 120))])])]),
  ("Rising Phoenix", [
    (90, [("potency", [(.p655, .ok (.int 700)), (.p70, .ok (.int 900))])]),
    (100, [("potency", [(.p70, .ok (.int 900))])])]),
  ("Phantom Rush", [
    (90, [
      ("potency", [(.p655, .ok (.int 1150)), (.p70, .ok (.int 1300)), (.p705, .ok (.int 1400))])]),
    (100, [("potency", [(.p70, .ok (.int 1400)), (.p705, .ok (.int 1500))])])]),
  ("Leaping Opo", [
    (100, [("potency", [(.p70, .ok (.int 260))]), ("potency_fury", [(.p70, .ok (.int 460))])])]),
  ("Rising Raptor", [
    (100, [
      ("potency", [(.p70, .ok (.int 330)), (.p701, .ok (.int 340))]),
      ("potency_fury", [(.p70, .ok (.int 480)), (.p701, .ok (.int 540))])])]),
  ("Pouncing Coeurl", [
    (100, [
      ("potency", [(.p70, .ok (.int 400)), (.p701, .ok (.int 370))]),
      ("min_potency", [(.p70, .ok (.int 340)), (.p701, .ok (.int 310))]),
      ("potency_fury", [(.p70, .ok (.int 500)), (.p701, .ok (.int 520))]),
      ("min_potency_fury", [(.p70, .ok (.int 440)), (.p701, .ok (.int 460))]),
      ("potency_no_pos", [(.p70, .ok (.int 340)), (.p701, .ok (.int 310))]),
      ("potency_no_pos_fury", [(.p70, .ok (.int 440)), (.p701, .ok (.int 460))])])]),
  ("Elixir Burst", [(100, [("potency", [(.p70, .ok (.int 900))])])]),
  ("Wind's Reply", [
    (100, [("potency", [(.p70, .ok (.int 800)), (.p705, .ok (.int 900))])])]),
  ("Fire's Reply", [
    (100, [("potency", [(.p70, .ok (.int 1100)), (.p705, .ok (.int 1200))])])]),
  ("Raptor's Fury", [
    (90, [
      ("num_uses", [(.p70, .ok (.int 2)), (.p701, .ok (.int 1))]),
      ("allowlist", [(.p70, .ok (.tuple [(.str "Rising Raptor"), (.str "True Strike")]))])]),
    (100, [
      ("num_uses", [(.p70, .ok (.int 2)), (.p701, .ok (.int 1))]),
      ("allowlist", [(.p70, .ok (.tuple [(.str "Rising Raptor"), (.str "True Strike")]))])])]),
  ("Coeurl's Fury", [
    (90, [
      ("num_uses", [(.p70, .ok (.int 3)), (.p701, .ok (.int 2))]),
      ("allowlist", [(.p70, .ok (.tuple [(.str "Pouncing Coeurl"), (.str "Snap Punch")]))])]),
    (100, [
      ("num_uses", [(.p70, .ok (.int 3)), (.p701, .ok (.int 2))]),
      ("allowlist", [(.p70, .ok (.tuple [(.str "Pouncing Coeurl"), (.str "Snap Punch")]))])])]),
  ("Opo-opo's Fury", [
    (90, [
      ("num_uses", [(.p70, .ok (.int 1))]),
      ("allowlist", [(.p70, .ok (.tuple [(.str "Leaping Opo"), (.str "Bootshine")]))])]),
    (100, [
      ("num_uses", [(.p70, .ok (.int 1))]),
      ("allowlist", [(.p70, .ok (.tuple [(.str "Leaping Opo"), (.str "Bootshine")]))])])])]

/-- class_skills/melee/mnk.py:28-41 `__get_disciplined_fist_follow_up` -/
def get_disciplined_fist_follow_up (env : Env) : Py PyVal := do
  if env.ge .p70 then
    return .none
  let name : PyVal := (.str "_Disciplined Fist buff")
  return (← newFollowUp {
    skill := (← newSkill {
      name := name
      is_GCD := (.bool false)
      buff_spec := (← newStatusEffectSpec {
        damage_mult := (.float (115 / 100))
        duration := (← PyVal.toInt (← PyVal.mul (.float (1497 / 100)) (.int 1000))) }) })
    delay_after_parent_application := (.int 0) })

/-- class_skills/melee/mnk.py:43-59 `__get_leaden_fist_follow_up` -/
def get_leaden_fist_follow_up (env : Env) : Py PyVal := do
  if env.ge .p70 then
    return .none
  let name : PyVal := (.str "Leaden Fist")
  return (← newFollowUp {
    skill := (← newSkill {
      name := name
      is_GCD := (.bool false)
      buff_spec := (← newStatusEffectSpec {
        add_to_skill_modifier_condition := (.bool true)
        num_uses := (.int 1)
        duration := (← PyVal.mul (.int 30) (.int 1000))
        skill_allowlist := (.tuple [(.str "Bootshine")]) }) })
    delay_after_parent_application := (.int 0) })

/-- class_skills/melee/mnk.py:61-71 `auto` -/
def auto (_env : Env) : Py PyVal := do
  let name : PyVal := (.str "Auto")
  return (← newSkill {
    name := name
    is_GCD := (.bool false)
    timing_spec := (← autoTimingSpec)
    damage_spec := (← newDamageSpec {
      potency := (.int 90)
      damage_class := (.damageClass .auto)
      trait_damage_mult_override := (.int 1) }) })

/-- class_skills/melee/mnk.py:73-112 `twin_snakes` -/
def twin_snakes (env : Env) : Py PyVal := do
  let raptor_fury_follow_up : PyVal := (← ifExp (env.ge .p70)
    (do return (← newFollowUp {
        skill := (← newSkill {
          name := (.str "Raptor's Fury")
          buff_spec := (← newStatusEffectSpec {
            num_uses := (← getSkillData table env (.str "Raptor's Fury") (.str "num_uses"))
            duration := (.inf)
            add_to_skill_modifier_condition := (.bool true)
            skill_allowlist := (← getSkillData table env (.str "Raptor's Fury") (.str "allowlist")) }) })
        delay_after_parent_application := (.int 0) }))
    (.ok .none))
  let name : PyVal := (.str "Twin Snakes")
  return (← newSkill {
    name := name
    is_GCD := (.bool true)
    damage_spec := (← newDamageSpec { potency := (← getPotency table env name) })
    timing_spec := (← newTimingSpec {
      base_cast_time := (.int 0)
      animation_lock := (.int 650)
      application_delay := (.int 840)
      gcd_base_recast_time := (.int 2000) })
    follow_up_skills := (← ifExp (env.ge .p70)
      (.ok (.tuple [raptor_fury_follow_up]))
      (do return (.tuple [(← get_disciplined_fist_follow_up env)]))) })

/-- class_skills/melee/mnk.py:114-129 `__get_opo_opo_form_follow_up` -/
def get_opo_opo_form_follow_up (env : Env) : Py PyVal := do
  let name : PyVal := (.str "Opo-opo Form")
  return (← newFollowUp {
    skill := (← newSkill {
      name := name
      is_GCD := (.bool false)
      buff_spec := (← newStatusEffectSpec {
        add_to_skill_modifier_condition := (.bool true)
        num_uses := (.int 1)
        max_num_uses := (.int 3)
        duration := (← PyVal.mul (.int 30) (.int 1000))
        skill_allowlist := (← getSkillData table env name (.str "allowlist")) }) })
    delay_after_parent_application := (.int 0) })

/-- class_skills/melee/mnk.py:131-217 `demolish` -/
def demolish (env : Env) : Py PyVal := do
  let name : PyVal := (.str "Demolish")
  let demolish_follow_up : PyVal := (← ifExp (env.ge .p70)
    (.ok .none)
    (do return (← newFollowUp {
        skill := (← newSkill {
          name := (.str "Demolish (dot)")
          is_GCD := (.bool false)
          damage_spec := (← newDamageSpec {
            potency := (← getPotency table env (.str "Demolish (dot)"))
            damage_class := (.damageClass .physicalDot) }) })
        delay_after_parent_application := (.int 0)
        dot_duration := (← PyVal.mul (.int 18) (.int 1000))
        snapshot_buffs_with_parent := (.bool true)
        snapshot_debuffs_with_parent := (.bool true) })))
  let coeurl_fury_follow_up : PyVal := (← ifExp (env.ge .p70)
    (do return (← newFollowUp {
        skill := (← newSkill {
          name := (.str "Coeurl's Fury")
          buff_spec := (← newStatusEffectSpec {
            num_uses := (← getSkillData table env (.str "Coeurl's Fury") (.str "num_uses"))
            duration := (.inf)
            add_to_skill_modifier_condition := (.bool true)
            skill_allowlist := (← getSkillData table env (.str "Coeurl's Fury") (.str "allowlist")) }) })
        delay_after_parent_application := (.int 0) }))
    (.ok .none))
  let demolish_damage_follow_up : PyVal := (← ifExp (env.ge .p70)
    (do return (← newFollowUp {
        skill := (← newSkill {
          name := name
          damage_spec := (mkDict [
            ((.str SimConsts.DEFAULT_CONDITION), (← newDamageSpec { potency := (← getPotency table env name) })),
            ((.str "No Positional"), (← newDamageSpec { potency := (← getPotencyNoPositional table env name) }))]) })
        delay_after_parent_application := (.int 1600) }))
    (.ok .none))
  let opo_opo_form_follow_up : PyVal := (← get_opo_opo_form_follow_up env)
  return (← newSkill {
    name := name
    is_GCD := (.bool true)
    damage_spec := (← getSkillData table env name (.str "damage_spec"))
    timing_spec := (← newTimingSpec {
      base_cast_time := (.int 0)
      animation_lock := (.int 650)
      application_delay := (← getSkillData table env name (.str "primary_application_delay"))
      gcd_base_recast_time := (.int 2000) })
    follow_up_skills := (← ifExp (env.ge .p70)
      (.ok (.tuple [demolish_damage_follow_up, opo_opo_form_follow_up, coeurl_fury_follow_up]))
      (.ok (.tuple [demolish_follow_up, opo_opo_form_follow_up]))) })

/-- class_skills/melee/mnk.py:219-273 `dragon_kick` -/
def dragon_kick (env : Env) : Py PyVal := do
  let mut leaden_fist_follow_up : PyVal := .unbound
  let mut dragon_follow_up : PyVal := .unbound
  let name : PyVal := (.str "Dragon Kick")
  let opo_opo_fury_follow_up : PyVal := (← ifExp (env.ge .p70)
    (do return (← newFollowUp {
        skill := (← newSkill {
          name := (.str "Opo-opo's Fury")
          buff_spec := (← newStatusEffectSpec {
            num_uses := (← getSkillData table env (.str "Opo-opo's Fury") (.str "num_uses"))
            duration := (.inf)
            add_to_skill_modifier_condition := (.bool true)
            skill_allowlist := (← getSkillData table env (.str "Opo-opo's Fury") (.str "allowlist")) }) })
        delay_after_parent_application := (.int 0) }))
    (.ok .none))
  if env.eq .p655 then
    leaden_fist_follow_up := (← get_leaden_fist_follow_up env)
    dragon_follow_up := (mkDict [
      ((.str SimConsts.DEFAULT_CONDITION), (.tuple [])),
      ((.str "Opo-opo Form"), (.tuple [leaden_fist_follow_up])),
      ((.str "Formless Fist"), (.tuple [leaden_fist_follow_up])),
      ((.str "Formless Fist, Opo-opo Form"), (.tuple [leaden_fist_follow_up]))])
  else
    if env.eq .p70 then
      dragon_follow_up := (.tuple [opo_opo_fury_follow_up])
    else
      dragon_follow_up := (mkDict [
        ((.str SimConsts.DEFAULT_CONDITION), (.tuple [])),
        ((.str "Opo-opo Form"), (.tuple [opo_opo_fury_follow_up])),
        ((.str "Formless Fist"), (.tuple [opo_opo_fury_follow_up])),
        ((.str "Formless Fist, Opo-opo Form"), (.tuple [opo_opo_fury_follow_up]))])
  return (← newSkill {
    name := name
    is_GCD := (.bool true)
    damage_spec := (← newDamageSpec { potency := (← getPotency table env name) })
    timing_spec := (← newTimingSpec {
      base_cast_time := (.int 0)
      animation_lock := (.int 650)
      application_delay := (.int 1290)
      gcd_base_recast_time := (.int 2000) })
    follow_up_skills := dragon_follow_up })

/-- class_skills/melee/mnk.py:275-290 `formless_fist` -/
def formless_fist (env : Env) : Py PyVal := do
  let name : PyVal := (.str "Formless Fist")
  return (← newSkill {
    name := name
    is_GCD := (.bool false)
    timing_spec := (← newTimingSpec {
      base_cast_time := (.int 0)
      animation_lock := (.int 0)
      application_delay := (.int 0) })
    buff_spec := (← newStatusEffectSpec {
      add_to_skill_modifier_condition := (.bool true)
      num_uses := (.int 1)
      duration := (← PyVal.mul (.int 30) (.int 1000))
      skill_allowlist := (← getSkillData table env name (.str "allowlist")) }) })

/-- class_skills/melee/mnk.py:292-307 `__get_formless_fist_follow_up` -/
def get_formless_fist_follow_up (env : Env) : Py PyVal := do
  let name : PyVal := (.str "Formless Fist")
  return (← newFollowUp {
    skill := (← newSkill {
      name := name
      is_GCD := (.bool false)
      buff_spec := (← newStatusEffectSpec {
        add_to_skill_modifier_condition := (.bool true)
        num_uses := (.int 1)
        duration := (← PyVal.mul (.int 30) (.int 1000))
        skill_allowlist := (← getSkillData table env name (.str "allowlist")) }) })
    delay_after_parent_application := (.int 0)
    primary_target_only := (.bool true) })

/-- class_skills/melee/mnk.py:309-399 `bootshine` -/
def bootshine (env : Env) : Py PyVal := do
  if decide (env.level ≥ 92) then
    return .none
  let name : PyVal := (.str "Bootshine")
  return (← newSkill {
    name := name
    is_GCD := (.bool true)
    damage_spec := (← ifExp (env.eq .p655)
      (do return (mkDict [
          ((.str SimConsts.DEFAULT_CONDITION), (← newDamageSpec { potency := (← getPotency table env name) })),
          ((.str "Leaden Fist"), (← newDamageSpec {
            potency := (← getSkillData table env name (.str "potency_leaden_fist")) })),
          ((.str "Opo-opo Form"), (← newDamageSpec {
            potency := (← getPotency table env name)
            guaranteed_crit := (.forced .forceYes) })),
          ((.str "Leaden Fist, Opo-opo Form"), (← newDamageSpec {
            potency := (← getSkillData table env name (.str "potency_leaden_fist"))
            guaranteed_crit := (.forced .forceYes) })),
          ((.str "Formless Fist"), (← newDamageSpec {
            potency := (← getPotency table env name)
            guaranteed_crit := (.forced .forceYes) })),
          ((.str "Formless Fist, Leaden Fist"), (← newDamageSpec {
            potency := (← getSkillData table env name (.str "potency_leaden_fist"))
            guaranteed_crit := (.forced .forceYes) })),
          ((.str "Formless Fist, Opo-opo Form"), (← newDamageSpec {
            potency := (← getPotency table env name)
            guaranteed_crit := (.forced .forceYes) })),
          ((.str "Formless Fist, Leaden Fist, Opo-opo Form"), (← newDamageSpec {
            potency := (← getSkillData table env name (.str "potency_leaden_fist"))
            guaranteed_crit := (.forced .forceYes) }))]))
      (do return (mkDict [
          ((.str SimConsts.DEFAULT_CONDITION), (← newDamageSpec { potency := (← getPotency table env name) })),
          ((.str "Opo-opo Form"), (← newDamageSpec {
            potency := (← getPotency table env name)
            guaranteed_crit := (.forced .forceYes) })),
          ((.str "Formless Fist"), (← newDamageSpec {
            potency := (← getPotency table env name)
            guaranteed_crit := (.forced .forceYes) })),
          ((.str "Formless Fist, Opo-opo Form"), (← newDamageSpec {
            potency := (← getPotency table env name)
            guaranteed_crit := (.forced .forceYes) })),
          ((.str "Opo-opo's Fury"), (← newDamageSpec { potency := (← getSkillData table env name (.str "potency_fury")) })),
          ((.str "Opo-opo's Fury, Opo-opo Form"), (← newDamageSpec {
            potency := (← getSkillData table env name (.str "potency_fury"))
            guaranteed_crit := (.forced .forceYes) })),
          ((.str "Opo-opo's Fury, Formless Fist"), (← newDamageSpec {
            potency := (← getSkillData table env name (.str "potency_fury"))
            guaranteed_crit := (.forced .forceYes) })),
          ((.str "Formless Fist, Opo-opo Form, Opo-opo's Fury"), (← newDamageSpec {
            potency := (← getSkillData table env name (.str "potency_fury"))
            guaranteed_crit := (.forced .forceYes) }))])))
    timing_spec := (← newTimingSpec {
      base_cast_time := (.int 0)
      animation_lock := (.int 650)
      application_delay := (.int 1110)
      gcd_base_recast_time := (.int 2000) }) })

/-- class_skills/melee/mnk.py:401-427 `true_strike` -/
def true_strike (env : Env) : Py PyVal := do
  if decide (env.level ≥ 92) then
    return .none
  let name : PyVal := (.str "True Strike")
  return (← newSkill {
    name := name
    is_GCD := (.bool true)
    damage_spec := (← ifExp (env.ge .p70)
      (do return (mkDict [
          ((.str SimConsts.DEFAULT_CONDITION), (← newDamageSpec { potency := (← getPotency table env name) })),
          ((.str "Raptor's Fury"), (← newDamageSpec { potency := (← getSkillData table env name (.str "potency_fury")) }))]))
      (do return (← newDamageSpec { potency := (← getPotency table env name) })))
    timing_spec := (← newTimingSpec {
      base_cast_time := (.int 0)
      animation_lock := (.int 650)
      application_delay := (.int 800)
      gcd_base_recast_time := (.int 2000) }) })

/-- class_skills/melee/mnk.py:429-492 `snap_punch` -/
def snap_punch (env : Env) : Py PyVal := do
  if decide (env.level ≥ 92) then
    return .none
  let name : PyVal := (.str "Snap Punch")
  return (← newSkill {
    name := name
    is_GCD := (.bool true)
    damage_spec := (← ifExp (env.ge .p70)
      (do return (mkDict [
          ((.str SimConsts.DEFAULT_CONDITION), (← newDamageSpec { potency := (← getPotency table env name) })),
          ((.str "No Positional"), (← newDamageSpec { potency := (← getPotencyNoPositional table env name) })),
          ((.str "Formless Fist"), (← newDamageSpec { potency := (← getPotency table env name) })),
          ((.str "Formless Fist, No Positional"), (← newDamageSpec { potency := (← getPotencyNoPositional table env name) })),
          ((.str "Coeurl's Fury"), (← newDamageSpec { potency := (← getSkillData table env name (.str "potency_fury")) })),
          ((.str "Coeurl's Fury, No Positional"), (← newDamageSpec {
            potency := (← getSkillData table env name (.str "potency_fury_no_pos")) })),
          ((.str "Coeurl's Fury, Formless Fist"), (← newDamageSpec { potency := (← getSkillData table env name (.str "potency_fury")) })),
          ((.str "Coeurl's Fury, Formless Fist, No Positional"), (← newDamageSpec {
            potency := (← getSkillData table env name (.str "potency_fury_no_pos")) }))]))
      (do return (mkDict [
          ((.str SimConsts.DEFAULT_CONDITION), (← newDamageSpec { potency := (← getPotency table env name) })),
          ((.str "No Positional"), (← newDamageSpec { potency := (← getPotencyNoPositional table env name) })),
          ((.str "Formless Fist"), (← newDamageSpec { potency := (← getPotency table env name) })),
          ((.str "Formless Fist, No Positional"), (← newDamageSpec { potency := (← getPotencyNoPositional table env name) }))])))
    timing_spec := (← newTimingSpec {
      base_cast_time := (.int 0)
      animation_lock := (.int 650)
      application_delay := (.int 760)
      gcd_base_recast_time := (.int 2000) })
    follow_up_skills := (.tuple [(← get_opo_opo_form_follow_up env)]) })

/-- class_skills/melee/mnk.py:494-509 `rockbreaker` -/
def rockbreaker (env : Env) : Py PyVal := do
  let name : PyVal := (.str "Rockbreaker")
  return (← newSkill {
    name := name
    is_GCD := (.bool true)
    damage_spec := (← newDamageSpec { potency := (← getPotency table env name) })
    timing_spec := (← newTimingSpec {
      base_cast_time := (.int 0)
      animation_lock := (.int 650)
      application_delay := (.int 940)
      gcd_base_recast_time := (.int 2000) })
    follow_up_skills := (.tuple [(← get_opo_opo_form_follow_up env)])
    has_aoe := (.bool true) })

/-- class_skills/melee/mnk.py:511-530 `four_point_fury` -/
def four_point_fury (env : Env) : Py PyVal := do
  let name : PyVal := (.str "Four-point Fury")
  return (← newSkill {
    name := name
    is_GCD := (.bool true)
    damage_spec := (← newDamageSpec { potency := (← getPotency table env name) })
    timing_spec := (← newTimingSpec {
      base_cast_time := (.int 0)
      animation_lock := (.int 650)
      application_delay := (.int 970)
      gcd_base_recast_time := (.int 2000) })
    follow_up_skills := (← ifExp (env.ge .p70)
      (.ok (.tuple []))
      (do return (.tuple [(← get_disciplined_fist_follow_up env)])))
    has_aoe := (.bool true) })

/-- class_skills/melee/mnk.py:532-542 `the_forbidden_chakra` -/
def the_forbidden_chakra (env : Env) : Py PyVal := do
  let name : PyVal := (.str "The Forbidden Chakra")
  return (← newSkill {
    name := name
    is_GCD := (.bool false)
    damage_spec := (← newDamageSpec { potency := (← getPotency table env name) })
    timing_spec := (← newTimingSpec {
      base_cast_time := (.int 0)
      animation_lock := (.int 650)
      application_delay := (.int 1420) }) })

/-- class_skills/melee/mnk.py:544-560 `elixir_field` -/
def elixir_field (env : Env) : Py PyVal := do
  let name : PyVal := (.str "Elixir Field")
  return (← newSkill {
    name := name
    is_GCD := (.bool true)
    damage_spec := (← newDamageSpec { potency := (← getPotency table env name) })
    timing_spec := (← newTimingSpec {
      base_cast_time := (.int 0)
      animation_lock := (.int 650)
      application_delay := (.int 1070)
      gcd_base_recast_time := (.int 2000) })
    follow_up_skills := (.tuple [(← get_formless_fist_follow_up env)])
    has_aoe := (.bool true)
    aoe_dropoff := (.float (7 / 10)) })

/-- class_skills/melee/mnk.py:562-576 `celestial_revolution` -/
def celestial_revolution (env : Env) : Py PyVal := do
  let name : PyVal := (.str "Celestial Revolution")
  return (← newSkill {
    name := name
    is_GCD := (.bool true)
    damage_spec := (← newDamageSpec { potency := (← getPotency table env name) })
    timing_spec := (← newTimingSpec {
      base_cast_time := (.int 0)
      animation_lock := (.int 650)
      application_delay := (.int 890)
      gcd_base_recast_time := (.int 2000) })
    follow_up_skills := (.tuple [(← get_formless_fist_follow_up env)]) })

/-- class_skills/melee/mnk.py:578-590 `riddle_of_fire` -/
def riddle_of_fire (env : Env) : Py PyVal := do
  let name : PyVal := (.str "Riddle of Fire")
  return (← newSkill {
    name := name
    is_GCD := (.bool false)
    timing_spec := (← instantTimingSpec)
    buff_spec := (← newStatusEffectSpec {
      damage_mult := (← getSkillData table env name (.str "damage_mult"))
      duration := (← getSkillData table env name (.str "duration")) }) })

/-- class_skills/melee/mnk.py:592-607 `brotherhood` -/
def brotherhood (env : Env) : Py PyVal := do
  let name : PyVal := (.str "Brotherhood")
  return (← newSkill {
    name := name
    is_GCD := (.bool false)
    timing_spec := (← newTimingSpec {
      base_cast_time := (.int 0)
      animation_lock := (.int 650)
      application_delay := (.int 800) })
    buff_spec := (← newStatusEffectSpec {
      damage_mult := (← getSkillData table env name (.str "damage_mult"))
      duration := (← getSkillData table env name (.str "duration"))
      is_party_effect := (.bool true) }) })

/-- class_skills/melee/mnk.py:609-621 `riddle_of_wind` -/
def riddle_of_wind (env : Env) : Py PyVal := do
  let name : PyVal := (.str "Riddle of Wind")
  return (← newSkill {
    name := name
    is_GCD := (.bool false)
    timing_spec := (← instantTimingSpec)
    buff_spec := (← newStatusEffectSpec {
      auto_attack_delay_reduction := (.float (50 / 100))
      duration := (← getSkillData table env name (.str "duration")) }) })

/-- class_skills/melee/mnk.py:623-634 `enlightenment` -/
def enlightenment (env : Env) : Py PyVal := do
  let name : PyVal := (.str "Enlightenment")
  return (← newSkill {
    name := name
    is_GCD := (.bool true)
    damage_spec := (← newDamageSpec { potency := (← getPotency table env name) })
    timing_spec := (← newTimingSpec {
      base_cast_time := (.int 0)
      animation_lock := (.int 650)
      application_delay := (.int 760) })
    has_aoe := (.bool true) })

/-- class_skills/melee/mnk.py:636-649 `six_sided_star` -/
def six_sided_star (env : Env) : Py PyVal := do
  let name : PyVal := (.str "Six-sided Star")
  return (← newSkill {
    name := name
    is_GCD := (.bool true)
    damage_spec := (← getSkillData table env name (.str "damage_spec"))
    timing_spec := (← newTimingSpec {
      base_cast_time := (.int 0)
      animation_lock := (.int 650)
      application_delay := (.int 620)
      gcd_base_recast_time := (.int 4000) }) })

/-- class_skills/melee/mnk.py:651-681 `shadow_of_the_destroyer` -/
def shadow_of_the_destroyer (env : Env) : Py PyVal := do
  let name : PyVal := (.str "Shadow of the Destroyer")
  return (← newSkill {
    name := name
    is_GCD := (.bool true)
    damage_spec := (mkDict [
      ((.str SimConsts.DEFAULT_CONDITION), (← newDamageSpec { potency := (← getPotency table env name) })),
      ((.str "Opo-opo Form"), (← newDamageSpec {
        potency := (← getPotency table env name)
        guaranteed_crit := (.forced .forceYes) })),
      ((.str "Formless Fist"), (← newDamageSpec {
        potency := (← getPotency table env name)
        guaranteed_crit := (.forced .forceYes) })),
      ((.str "Formless Fist, Opo-opo Form"), (← newDamageSpec {
        potency := (← getPotency table env name)
        guaranteed_crit := (.forced .forceYes) }))])
    timing_spec := (← newTimingSpec {
      base_cast_time := (.int 0)
      animation_lock := (.int 650)
      application_delay := (.int 400)
      gcd_base_recast_time := (.int 2000) })
    has_aoe := (.bool true) })

/-- class_skills/melee/mnk.py:683-699 `rising_phoenix` -/
def rising_phoenix (env : Env) : Py PyVal := do
  let name : PyVal := (.str "Rising Phoenix")
  return (← newSkill {
    name := name
    is_GCD := (.bool true)
    damage_spec := (← newDamageSpec { potency := (← getPotency table env name) })
    timing_spec := (← newTimingSpec {
      base_cast_time := (.int 0)
      animation_lock := (.int 650)
      application_delay := (.int 760)
      gcd_base_recast_time := (.int 2000) })
    follow_up_skills := (.tuple [(← get_formless_fist_follow_up env)])
    has_aoe := (.bool true)
    aoe_dropoff := (.float (7 / 10)) })

/-- class_skills/melee/mnk.py:701-717 `phantom_rush` -/
def phantom_rush (env : Env) : Py PyVal := do
  let name : PyVal := (.str "Phantom Rush")
  return (← newSkill {
    name := name
    is_GCD := (.bool true)
    damage_spec := (← newDamageSpec { potency := (← getPotency table env name) })
    timing_spec := (← newTimingSpec {
      base_cast_time := (.int 0)
      animation_lock := (.int 650)
      application_delay := (.int 400)
      gcd_base_recast_time := (.int 2000) })
    follow_up_skills := (.tuple [(← get_formless_fist_follow_up env)])
    has_aoe := (.bool true)
    aoe_dropoff := (.float (5 / 10)) })

/-- class_skills/melee/mnk.py:719-766 `leaping_opo` -/
def leaping_opo (env : Env) : Py PyVal := do
  if decide (env.level < 92) then
    return .none
  let name : PyVal := (.str "Leaping Opo")
  return (← newSkill {
    name := name
    is_GCD := (.bool true)
    damage_spec := (mkDict [
      ((.str SimConsts.DEFAULT_CONDITION), (← newDamageSpec { potency := (← getPotency table env name) })),
      ((.str "Opo-opo Form"), (← newDamageSpec {
        potency := (← getPotency table env name)
        guaranteed_crit := (.forced .forceYes) })),
      ((.str "Formless Fist"), (← newDamageSpec {
        potency := (← getPotency table env name)
        guaranteed_crit := (.forced .forceYes) })),
      ((.str "Formless Fist, Opo-opo Form"), (← newDamageSpec {
        potency := (← getPotency table env name)
        guaranteed_crit := (.forced .forceYes) })),
      ((.str "Opo-opo's Fury"), (← newDamageSpec { potency := (← getSkillData table env name (.str "potency_fury")) })),
      ((.str "Opo-opo's Fury, Opo-opo Form"), (← newDamageSpec {
        potency := (← getSkillData table env name (.str "potency_fury"))
        guaranteed_crit := (.forced .forceYes) })),
      ((.str "Formless Fist, Opo-opo's Fury"), (← newDamageSpec {
        potency := (← getSkillData table env name (.str "potency_fury"))
        guaranteed_crit := (.forced .forceYes) })),
      ((.str "Formless Fist, Opo-opo Form, Opo-opo's Fury"), (← newDamageSpec {
        potency := (← getSkillData table env name (.str "potency_fury"))
        guaranteed_crit := (.forced .forceYes) }))])
    timing_spec := (← newTimingSpec {
      base_cast_time := (.int 0)
      animation_lock := (.int 650)
      application_delay := (.int 620)
      gcd_base_recast_time := (.int 2000) }) })

/-- class_skills/melee/mnk.py:768-790 `rising_raptor` -/
def rising_raptor (env : Env) : Py PyVal := do
  if decide (env.level < 92) then
    return .none
  let name : PyVal := (.str "Rising Raptor")
  return (← newSkill {
    name := name
    is_GCD := (.bool true)
    damage_spec := (mkDict [
      ((.str SimConsts.DEFAULT_CONDITION), (← newDamageSpec { potency := (← getPotency table env name) })),
      ((.str "Raptor's Fury"), (← newDamageSpec { potency := (← getSkillData table env name (.str "potency_fury")) }))])
    timing_spec := (← newTimingSpec {
      base_cast_time := (.int 0)
      animation_lock := (.int 650)
      application_delay := (.int 890)
      gcd_base_recast_time := (.int 2000) }) })

/-- class_skills/melee/mnk.py:792-835 `pouncing_coeurl` -/
def pouncing_coeurl (env : Env) : Py PyVal := do
  if decide (env.level < 92) then
    return .none
  let name : PyVal := (.str "Pouncing Coeurl")
  return (← newSkill {
    name := name
    is_GCD := (.bool true)
    damage_spec := (mkDict [
      ((.str SimConsts.DEFAULT_CONDITION), (← newDamageSpec {
        potency := (← getPotency table env name)
        use_min_potency := (← getSkillData table env name (.str "min_potency")) })),
      ((.str "Coeurl's Fury"), (← newDamageSpec {
        potency := (← getSkillData table env name (.str "potency_fury"))
        use_min_potency := (← getSkillData table env name (.str "min_potency_fury")) })),
      ((.str "No Positional"), (← newDamageSpec {
        potency := (← getSkillData table env name (.str "potency_no_pos"))
        use_min_potency := (← getSkillData table env name (.str "min_potency")) })),
      ((.str "Coeurl's Fury, No Positional"), (← newDamageSpec {
        potency := (← getSkillData table env name (.str "potency_no_pos_fury"))
        use_min_potency := (← getSkillData table env name (.str "min_potency_fury")) }))])
    timing_spec := (← newTimingSpec {
      base_cast_time := (.int 0)
      animation_lock := (.int 650)
      application_delay := (.int 1020)
      gcd_base_recast_time := (.int 2000) })
    follow_up_skills := (.tuple [(← get_opo_opo_form_follow_up env)]) })

/-- class_skills/melee/mnk.py:837-855 `elixir_burst` -/
def elixir_burst (env : Env) : Py PyVal := do
  if decide (env.level < 92) then
    return .none
  let name : PyVal := (.str "Elixir Burst")
  return (← newSkill {
    name := name
    is_GCD := (.bool true)
    damage_spec := (← newDamageSpec { potency := (← getPotency table env name) })
    timing_spec := (← newTimingSpec {
      base_cast_time := (.int 0)
      animation_lock := (.int 650)
      application_delay := (.int 1420)
      gcd_base_recast_time := (.int 2000) })
    follow_up_skills := (.tuple [(← get_formless_fist_follow_up env)])
    has_aoe := (.bool true)
    aoe_dropoff := (.float (7 / 10)) })

/-- class_skills/melee/mnk.py:857-874 `winds_reply` -/
def winds_reply (env : Env) : Py PyVal := do
  if decide (env.level < 96) then
    return .none
  let name : PyVal := (.str "Wind's Reply")
  return (← newSkill {
    name := name
    is_GCD := (.bool true)
    damage_spec := (← newDamageSpec { potency := (← getPotency table env name) })
    timing_spec := (← newTimingSpec {
      base_cast_time := (.int 0)
      animation_lock := (.int 650)
      application_delay := (.int 1200)
      gcd_base_recast_time := (.int 2000) })
    has_aoe := (.bool true)
    aoe_dropoff := (.float (5 / 10)) })

/-- class_skills/melee/mnk.py:876-894 `fires_reply` -/
def fires_reply (env : Env) : Py PyVal := do
  if decide (env.level < 100) then
    return .none
  let name : PyVal := (.str "Fire's Reply")
  return (← newSkill {
    name := name
    is_GCD := (.bool true)
    damage_spec := (← newDamageSpec { potency := (← getPotency table env name) })
    timing_spec := (← newTimingSpec {
      base_cast_time := (.int 0)
      animation_lock := (.int 650)
      application_delay := (.int 1420)
      gcd_base_recast_time := (.int 2000) })
    follow_up_skills := (.tuple [(← get_formless_fist_follow_up env)])
    has_aoe := (.bool true)
    aoe_dropoff := (.float (5 / 10)) })

/-- class_skills/melee/mnk.py:896-909 `perfect_balance` -/
def perfect_balance (env : Env) : Py PyVal := do
  let name : PyVal := (.str "Perfect Balance")
  let opo_opo_form_follow_up : PyVal := (← get_opo_opo_form_follow_up env)
  return (← newSkill {
    name := name
    is_GCD := (.bool false)
    timing_spec := (← instantTimingSpec)
    follow_up_skills := (.tuple [opo_opo_form_follow_up, opo_opo_form_follow_up, opo_opo_form_follow_up]) })

/-- class_skills/melee/mnk.py:911-919 `form_shift` -/
def form_shift (env : Env) : Py PyVal := do
  let name : PyVal := (.str "Form Shift")
  return (← newSkill {
    name := name
    is_GCD := (.bool false)
    timing_spec := (← newTimingSpec { base_cast_time := (.int 0), gcd_base_recast_time := (.int 2000) })
    follow_up_skills := (.tuple [(← get_formless_fist_follow_up env)]) })

/-- class_skills/melee/mnk.py:925-928 `steeled_meditation` -/
def steeled_meditation (_env : Env) : Py PyVal := do
  let name : PyVal := (.str "Steeled Meditation")
  return (← newSkill {
    name := name
    is_GCD := (.bool false)
    timing_spec := (← instantTimingSpec) })

/-- class_skills/melee/mnk.py:930-933 `inspirited_meditation` -/
def inspirited_meditation (_env : Env) : Py PyVal := do
  let name : PyVal := (.str "Inspirited Meditation")
  return (← newSkill {
    name := name
    is_GCD := (.bool false)
    timing_spec := (← instantTimingSpec) })

/-- class_skills/melee/mnk.py:935-938 `forbidden_meditation` -/
def forbidden_meditation (_env : Env) : Py PyVal := do
  let name : PyVal := (.str "Forbidden Meditation")
  return (← newSkill {
    name := name
    is_GCD := (.bool false)
    timing_spec := (← instantTimingSpec) })

/-- class_skills/melee/mnk.py:940-943 `enlightened_meditation` -/
def enlightened_meditation (_env : Env) : Py PyVal := do
  let name : PyVal := (.str "Enlightened Meditation")
  return (← newSkill {
    name := name
    is_GCD := (.bool false)
    timing_spec := (← instantTimingSpec) })

/-- class_skills/melee/mnk.py:945-948 `true_north` -/
def true_north (_env : Env) : Py PyVal := do
  let name : PyVal := (.str "True North")
  return (← newSkill {
    name := name
    is_GCD := (.bool false)
    timing_spec := (← instantTimingSpec) })

/-- class_skills/melee/mnk.py:950-953 `meditation` -/
def meditation (_env : Env) : Py PyVal := do
  let name : PyVal := (.str "Meditation")
  return (← newSkill {
    name := name
    is_GCD := (.bool false)
    timing_spec := (← instantTimingSpec) })

/-- class_skills/melee/mnk.py:955-958 `thunderclap` -/
def thunderclap (_env : Env) : Py PyVal := do
  let name : PyVal := (.str "Thunderclap")
  return (← newSkill {
    name := name
    is_GCD := (.bool false)
    timing_spec := (← instantTimingSpec) })

/-- class_skills/melee/mnk.py:22-958 `MnkSkills`; the methods in the order of `dir`. -/
def job (env : Env) : JobClass where
  jobClass := "MNK"
  skillMethods := [
    auto env,
    bootshine env,
    brotherhood env,
    celestial_revolution env,
    demolish env,
    dragon_kick env,
    elixir_burst env,
    elixir_field env,
    enlightened_meditation env,
    enlightenment env,
    fires_reply env,
    forbidden_meditation env,
    form_shift env,
    formless_fist env,
    four_point_fury env,
    inspirited_meditation env,
    leaping_opo env,
    meditation env,
    perfect_balance env,
    phantom_rush env,
    pouncing_coeurl env,
    riddle_of_fire env,
    riddle_of_wind env,
    rising_phoenix env,
    rising_raptor env,
    rockbreaker env,
    shadow_of_the_destroyer env,
    six_sided_star env,
    snap_punch env,
    steeled_meditation env,
    the_forbidden_chakra env,
    thunderclap env,
    true_north env,
    true_strike env,
    twin_snakes env,
    winds_reply env]

end Ama.GameData.Mnk
