import Verif.Model.GameData.Values

/-!
# AST

Model of `simulator/game_data/class_skills/healer/ast.py` and `simulator/game_data/class_skills/healer/ast_data.py`, written by
`tools/translate.py`: one function per method.  Paths in the comments are relative to
`simulator/game_data`.
-/

namespace Ama.GameData.Ast

open PyVal

/-- class_skills/healer/ast_data.py:7-31 `ALL_DATA` -/
def table : Table := [
  ("Divination", [
    (90, [
      ("duration", [
        (.p655, do return (← PyVal.mul (.int 15) (.int 1000))),
        (.p70, do return (← PyVal.mul (.int 20) (.int 1000)))])]),
    (100, [("duration", [(.p70, do return (← PyVal.mul (.int 20) (.int 1000)))])])]),
  ("Fall Malefic", [
    (90, [("potency", [(.p655, .ok (.int 250))])]),
    (100, [("potency", [(.p70, .ok (.int 270))])])]),
  ("Combust III (dot)", [
    (90, [("potency", [(.p655, .ok (.int 55)), (.p70, .ok (.int 65))])]),
    (100, [("potency", [(.p70, .ok (.int 70))])])]),
  ("Gravity II", [
    (90, [("potency", [(.p655, .ok (.int 130))])]),
    (100, [("potency", [(.p70, .ok (.int 130))])])]),
  ("Macrocosmos", [
    (90, [("potency", [(.p655, .ok (.int 250))])]),
    (100, [("potency", [(.p70, .ok (.int 250)), (.p701, .ok (.int 270))])])]),
  ("Lord of Crowns", [
    (90, [("potency", [(.p655, .ok (.int 250)), (.p70, .ok (.int 400))])]),
    (100, [("potency", [(.p70, .ok (.int 400))])])]),
  ("Stellar Explosion (pet)", [
    (90, [
      ("Earthly Dominance", [(.p655, .ok (.int 205))]),
      ("Giant Dominance", [(.p655, .ok (.int 310))])]),
    (100, [
      ("Earthly Dominance", [(.p70, .ok (.int 205))]),
      ("Giant Dominance", [(.p70, .ok (.int 310))])])]),
  ("Oracle", [(100, [("potency", [(.p70, .ok (.int 860))])])])]

/-- class_skills/healer/ast.py:25-35 `auto` -/
def auto (_env : Env) : Py PyVal := do
  let name : PyVal := (.str "Auto")
  return (← newSkill {
    name := name
    is_GCD := (.bool false)
    timing_spec := (← autoTimingSpec)
    damage_spec := (← newDamageSpec {
      potency := (.int 90)
      damage_class := (.damageClass .auto)
      trait_damage_mult_override := (.int 1) }) })

/-- class_skills/healer/ast.py:37-51 `divination` -/
def divination (env : Env) : Py PyVal := do
  let name : PyVal := (.str "Divination")
  return (← newSkill {
    name := name
    is_GCD := (.bool false)
    timing_spec := (← newTimingSpec {
      base_cast_time := (.int 0)
      animation_lock := (.int 650)
      application_delay := (.int 600) })
    buff_spec := (← newStatusEffectSpec {
      duration := (← getSkillData table env name (.str "duration"))
      damage_mult := (.float (106 / 100))
      is_party_effect := (.bool true) }) })

/-- class_skills/healer/ast.py:53-63 `fall_malefic` -/
def fall_malefic (env : Env) : Py PyVal := do
  let name : PyVal := (.str "Fall Malefic")
  return (← newSkill {
    name := name
    is_GCD := (.bool true)
    timing_spec := (← newTimingSpec {
      base_cast_time := (.int 1500)
      animation_lock := (.int 100)
      application_delay := (.int 1070) })
    damage_spec := (← newDamageSpec { potency := (← getPotency table env name) }) })

/-- class_skills/healer/ast.py:65-93 `combust` -/
def combust (env : Env) : Py PyVal := do
  let mut name : PyVal := .unbound
  name := (.str "Combust III (dot)")
  let combust_iii_dot : PyVal := (← newSkill {
    name := name
    is_GCD := (.bool false)
    damage_spec := (← newDamageSpec {
      potency := (← getPotency table env name)
      damage_class := (.damageClass .magicalDot) }) })
  name := (.str "Combust III")
  return (← newSkill {
    name := name
    is_GCD := (.bool true)
    timing_spec := (← newTimingSpec {
      base_cast_time := (.int 0)
      animation_lock := (.int 650)
      application_delay := (.int 620) })
    follow_up_skills := (.tuple [
      (← newFollowUp {
        skill := combust_iii_dot
        delay_after_parent_application := (.int 0)
        dot_duration := (← PyVal.mul (.int 30) (.int 1000))
        snapshot_buffs_with_parent := (.bool true)
        snapshot_debuffs_with_parent := (.bool true) })]) })

/-- class_skills/healer/ast.py:95-125 `astrodyne` -/
def astrodyne (env : Env) : Py PyVal := do
  if env.ge .p70 then
    return .none
  let name : PyVal := (.str "Astrodyne")
  return (← newSkill {
    name := name
    is_GCD := (.bool false)
    timing_spec := (← instantTimingSpec)
    buff_spec := (mkDict [
      ((.str SimConsts.DEFAULT_CONDITION), .none),
      ((.str "1 Moon, 1 Asterisk, 1 Circle"), (← newStatusEffectSpec {
        duration := (← PyVal.mul (.int 15) (.int 1000))
        haste_time_reduction := (.float (10 / 100))
        damage_mult := (.float (105 / 100)) })),
      ((.str "1 Moon, 1 Asterisk"), (← newStatusEffectSpec {
        duration := (← PyVal.mul (.int 15) (.int 1000))
        haste_time_reduction := (.float (10 / 100)) })),
      ((.str "1 Moon, 1 Circle"), (← newStatusEffectSpec {
        duration := (← PyVal.mul (.int 15) (.int 1000))
        haste_time_reduction := (.float (10 / 100)) })),
      ((.str "1 Circle, 1 Asterisk"), (← newStatusEffectSpec {
        duration := (← PyVal.mul (.int 15) (.int 1000))
        haste_time_reduction := (.float (10 / 100)) }))])
    job_resource_spec := (.tuple [
      (← newJobResourceSpec { name := (.str "Moon"), change := (← PyVal.neg (.inf)) }),
      (← newJobResourceSpec { name := (.str "Asterisk"), change := (← PyVal.neg (.inf)) }),
      (← newJobResourceSpec { name := (.str "Circle"), change := (← PyVal.neg (.inf)) })]) })

/-- class_skills/healer/ast.py:127-137 `lightspeed` -/
def lightspeed (_env : Env) : Py PyVal := do
  let name : PyVal := (.str "Lightspeed")
  return (← newSkill {
    name := name
    is_GCD := (.bool false)
    timing_spec := (← instantTimingSpec)
    buff_spec := (← newStatusEffectSpec {
      duration := (← PyVal.mul (.int 15) (.int 1000))
      flat_cast_time_reduction := (.int 2500) }) })

/-- class_skills/healer/ast.py:139-150 `gravity_ii` -/
def gravity_ii (env : Env) : Py PyVal := do
  let name : PyVal := (.str "Gravity II")
  return (← newSkill {
    name := name
    is_GCD := (.bool true)
    timing_spec := (← newTimingSpec {
      base_cast_time := (.int 1500)
      animation_lock := (.int 100)
      application_delay := (.int 1160) })
    damage_spec := (← newDamageSpec { potency := (← getPotency table env name) })
    has_aoe := (.bool true) })

/-- class_skills/healer/ast.py:152-168 `macrocosmos` -/
def macrocosmos (env : Env) : Py PyVal := do
  let name : PyVal := (.str "Macrocosmos")
  return (← newSkill {
    name := name
    is_GCD := (.bool true)
    timing_spec := (← newTimingSpec {
      base_cast_time := (.int 0)
      animation_lock := (.int 100)
      application_delay := (.int 750) })
    damage_spec := (mkDict [
      ((.str SimConsts.DEFAULT_CONDITION), (← newDamageSpec { potency := (← getPotency table env name) }))])
    has_aoe := (.bool true)
    aoe_dropoff := (.float (4 / 10)) })

/-- class_skills/healer/ast.py:170-181 `lord_of_crowns` -/
def lord_of_crowns (env : Env) : Py PyVal := do
  let name : PyVal := (.str "Lord of Crowns")
  return (← newSkill {
    name := name
    is_GCD := (.bool false)
    timing_spec := (← newTimingSpec {
      base_cast_time := (.int 0)
      animation_lock := (.int 650)
      application_delay := (.int 620) })
    damage_spec := (← newDamageSpec { potency := (← getPotency table env name) })
    has_aoe := (.bool true) })

/-- class_skills/healer/ast.py:183-204 `card` -/
def card (_env : Env) : Py PyVal := do
  let name : PyVal := (.str "Card")
  return (← newSkill {
    name := name
    is_GCD := (.bool false)
    timing_spec := (← newTimingSpec {
      base_cast_time := (.int 0)
      animation_lock := (.int 650)
      application_delay := (.int 620) })
    buff_spec := (mkDict [
      ((.str SimConsts.DEFAULT_CONDITION), (← newStatusEffectSpec {
        duration := (← PyVal.mul (.int 15) (.int 1000))
        damage_mult := (.float (106 / 100))
        is_party_effect := (.bool true) })),
      ((.str "Big"), (← newStatusEffectSpec {
        duration := (← PyVal.mul (.int 15) (.int 1000))
        damage_mult := (.float (106 / 100))
        is_party_effect := (.bool true) })),
      ((.str "Small"), (← newStatusEffectSpec {
        duration := (← PyVal.mul (.int 15) (.int 1000))
        damage_mult := (.float (103 / 100))
        is_party_effect := (.bool true) }))])
    off_class_default_condition := (.str "Big") })

/-- class_skills/healer/ast.py:206-219 `swiftcast` -/
def swiftcast (_env : Env) : Py PyVal := do
  let name : PyVal := (.str "Swiftcast")
  return (← newSkill {
    name := name
    is_GCD := (.bool false)
    timing_spec := (← instantTimingSpec)
    buff_spec := (← newStatusEffectSpec {
      flat_cast_time_reduction := (.inf)
      duration := (← PyVal.mul (.int 10) (.int 1000))
      num_uses := (.int 1)
      skill_allowlist := (.tuple [(.str "Glare III"), (.str "Holy III")]) }) })

/-- class_skills/healer/ast.py:221-241 `__get_giant_dominance_followup` -/
def get_giant_dominance_followup (_env : Env) : Py PyVal := do
  let name : PyVal := (.str "Giant Dominance")
  return (← newFollowUp {
    skill := (← newSkill {
      name := name
      is_GCD := (.bool false)
      buff_spec := (mkDict [
        ((.str SimConsts.DEFAULT_CONDITION), .none),
        ((.str "Earthly Dominance"), (← newStatusEffectSpec {
          duration := (← PyVal.toInt (← PyVal.mul (.float (101 / 10)) (.int 1000)))
          is_party_effect := (.bool false)
          add_to_skill_modifier_condition := (.bool true)
          num_uses := (.int 1)
          skill_allowlist := (.tuple [(.str "Stellar Explosion (pet)")]) }))]) })
    delay_after_parent_application := (← PyVal.mul (.int 10) (.int 1000))
    snapshot_buffs_with_parent := (.bool false)
    snapshot_debuffs_with_parent := (.bool false) })

/-- class_skills/healer/ast.py:243-267 `__get_stellar_detonation_follow_up` -/
def get_stellar_detonation_follow_up (env : Env) : Py PyVal := do
  let name : PyVal := (.str "Stellar Explosion (pet)")
  return (← newFollowUp {
    skill := (← newSkill {
      name := name
      is_GCD := (.bool false)
      status_effect_denylist := (.tuple [(.str "Dragon Sight")])
      damage_spec := (mkDict [
        ((.str SimConsts.DEFAULT_CONDITION), .none),
        ((.str "Earthly Dominance"), (← newDamageSpec {
          damage_class := (.damageClass .pet)
          potency := (← getSkillData table env name (.str "Earthly Dominance"))
          pet_job_mod_override := (.int 118) })),
        ((.str "Giant Dominance"), (← newDamageSpec {
          damage_class := (.damageClass .pet)
          potency := (← getSkillData table env name (.str "Giant Dominance"))
          pet_job_mod_override := (.int 118) }))]) })
    delay_after_parent_application := (← PyVal.mul (.int 20) (.int 1000))
    snapshot_buffs_with_parent := (.bool false)
    snapshot_debuffs_with_parent := (.bool false) })

/-- class_skills/healer/ast.py:269-312 `giant_dominance` -/
def giant_dominance (env : Env) : Py PyVal := do
  let mut name : PyVal := .unbound
  name := (.str "Stellar Explosion (pet)")
  let stellar_detonation_follow_up2 : PyVal := (← newFollowUp {
    skill := (← newSkill {
      name := name
      is_GCD := (.bool false)
      status_effect_denylist := (.tuple [(.str "Dragon Sight")])
      damage_spec := (mkDict [
        ((.str SimConsts.DEFAULT_CONDITION), .none),
        ((.str "Earthly Dominance"), (← newDamageSpec {
          damage_class := (.damageClass .pet)
          potency := (← getSkillData table env name (.str "Earthly Dominance"))
          pet_job_mod_override := (.int 118) })),
        ((.str "Giant Dominance"), (← newDamageSpec {
          damage_class := (.damageClass .pet)
          potency := (← getSkillData table env name (.str "Giant Dominance"))
          pet_job_mod_override := (.int 118) }))]) })
    delay_after_parent_application := (← PyVal.mul (.int 10) (.int 1000))
    snapshot_buffs_with_parent := (.bool false)
    snapshot_debuffs_with_parent := (.bool false) })
  name := (.str "Giant Dominance")
  return (← newSkill {
    name := name
    is_GCD := (.bool false)
    timing_spec := (← newTimingSpec {
      base_cast_time := (.int 0)
      animation_lock := (.int 0)
      application_delay := (.int 0) })
    buff_spec := (← newStatusEffectSpec {
      duration := (← PyVal.toInt (← PyVal.mul (.float (101 / 10)) (.int 1000)))
      is_party_effect := (.bool false)
      add_to_skill_modifier_condition := (.bool true)
      num_uses := (.int 1)
      skill_allowlist := (.tuple [(.str "Stellar Explosion (pet)")]) })
    follow_up_skills := (.tuple [stellar_detonation_follow_up2])
    has_aoe := (.bool true) })

/-- class_skills/healer/ast.py:314-332 `earthly_dominance` -/
def earthly_dominance (env : Env) : Py PyVal := do
  let name : PyVal := (.str "Earthly Dominance")
  return (← newSkill {
    name := name
    is_GCD := (.bool false)
    timing_spec := (← newTimingSpec {
      base_cast_time := (.int 0)
      animation_lock := (.int 0)
      application_delay := (.int 0) })
    buff_spec := (← newStatusEffectSpec {
      duration := (← PyVal.toInt (← PyVal.mul (.float (101 / 10)) (.int 1000)))
      is_party_effect := (.bool false)
      add_to_skill_modifier_condition := (.bool true)
      num_uses := (.int 1)
      skill_allowlist := (.tuple [(.str "Stellar Explosion (pet)"), (.str "Giant Dominance")]) })
    follow_up_skills := (.tuple [(← get_giant_dominance_followup env), (← get_stellar_detonation_follow_up env)])
    has_aoe := (.bool true) })

/-- class_skills/healer/ast.py:334-369 `stellar_detonation` -/
def stellar_detonation (env : Env) : Py PyVal := do
  let mut name : PyVal := .unbound
  name := (.str "Stellar Explosion (pet)")
  let stellar_detonation_instant : PyVal := (← newFollowUp {
    skill := (← newSkill {
      name := name
      is_GCD := (.bool false)
      status_effect_denylist := (.tuple [(.str "Dragon Sight")])
      damage_spec := (mkDict [
        ((.str SimConsts.DEFAULT_CONDITION), .none),
        ((.str "Earthly Dominance"), (← newDamageSpec {
          damage_class := (.damageClass .pet)
          potency := (← getSkillData table env name (.str "Earthly Dominance"))
          pet_job_mod_override := (.int 118) })),
        ((.str "Giant Dominance"), (← newDamageSpec {
          damage_class := (.damageClass .pet)
          potency := (← getSkillData table env name (.str "Giant Dominance"))
          pet_job_mod_override := (.int 118) }))]) })
    delay_after_parent_application := (.int 0)
    snapshot_buffs_with_parent := (.bool false)
    snapshot_debuffs_with_parent := (.bool false) })
  name := (.str "Stellar Detonation")
  return (← newSkill {
    name := name
    is_GCD := (.bool false)
    status_effect_denylist := (.tuple [(.str "Dragon Sight")])
    timing_spec := (← newTimingSpec { base_cast_time := (.int 0), application_delay := (.int 0) })
    follow_up_skills := (.tuple [stellar_detonation_instant])
    has_aoe := (.bool true) })

/-- class_skills/healer/ast.py:371-402 `earthly_star` -/
def earthly_star (env : Env) : Py PyVal := do
  let mut name : PyVal := .unbound
  name := (.str "Earthly Dominance")
  let earthly_dom_follow_up : PyVal := (← newFollowUp {
    skill := (← newSkill {
      name := name
      is_GCD := (.bool false)
      buff_spec := (← newStatusEffectSpec {
        duration := (← PyVal.toInt (← PyVal.mul (.float (101 / 10)) (.int 1000)))
        is_party_effect := (.bool false)
        add_to_skill_modifier_condition := (.bool true)
        num_uses := (.int 1)
        skill_allowlist := (.tuple [(.str "Stellar Explosion (pet)"), (.str "Giant Dominance")]) }) })
    delay_after_parent_application := (.int 0)
    snapshot_buffs_with_parent := (.bool false)
    snapshot_debuffs_with_parent := (.bool false) })
  name := (.str "Earthly Star")
  return (← newSkill {
    name := name
    is_GCD := (.bool false)
    timing_spec := (← instantTimingSpec)
    follow_up_skills := (.tuple [
      earthly_dom_follow_up,
      (← get_giant_dominance_followup env),
      (← get_stellar_detonation_follow_up env)])
    has_aoe := (.bool true) })

/-- class_skills/healer/ast.py:404-417 `oracle` -/
def oracle (env : Env) : Py PyVal := do
  if decide (env.level < 92) then
    return .none
  let name : PyVal := (.str "Oracle")
  return (← newSkill {
    name := name
    is_GCD := (.bool false)
    timing_spec := (← newTimingSpec {
      base_cast_time := (.int 0)
      animation_lock := (.int 650)
      application_delay := (.int 1740) })
    damage_spec := (← newDamageSpec { potency := (← getPotency table env name) })
    has_aoe := (.bool true) })

/-- class_skills/healer/ast.py:423-434 `helios_conjunction` -/
def helios_conjunction (env : Env) : Py PyVal := do
  if decide (env.level < 96) then
    return .none
  let name : PyVal := (.str "Helios Conjunction")
  return (← newSkill {
    name := name
    is_GCD := (.bool false)
    timing_spec := (← newTimingSpec {
      base_cast_time := (.int 1500)
      animation_lock := (.int 650)
      application_delay := (.int 620) }) })

/-- class_skills/healer/ast.py:435-439 `draw` -/
def draw (env : Env) : Py PyVal := do
  if env.ge .p70 then
    return .none
  return (← newSkill {
    name := (.str "Draw")
    is_GCD := (.bool false)
    timing_spec := (← instantTimingSpec) })

/-- class_skills/healer/ast.py:441-445 `redraw` -/
def redraw (env : Env) : Py PyVal := do
  if env.ge .p70 then
    return .none
  return (← newSkill {
    name := (.str "Redraw")
    is_GCD := (.bool false)
    timing_spec := (← instantTimingSpec) })

/-- class_skills/healer/ast.py:447-451 `play` -/
def play (env : Env) : Py PyVal := do
  if env.ge .p70 then
    return .none
  return (← newSkill {
    name := (.str "Play")
    is_GCD := (.bool false)
    timing_spec := (← instantTimingSpec) })

/-- class_skills/healer/ast.py:453-455 `minor_arcana` -/
def minor_arcana (_env : Env) : Py PyVal := do
  return (← newSkill {
    name := (.str "Minor Arcana")
    is_GCD := (.bool false)
    timing_spec := (← instantTimingSpec) })

/-- class_skills/healer/ast.py:457-464 `collective_unconscious` -/
def collective_unconscious (_env : Env) : Py PyVal := do
  return (← newSkill {
    name := (.str "Collective Unconscious")
    is_GCD := (.bool false)
    timing_spec := (← instantTimingSpec)
    channeling_spec := (← newChannelingSpec { duration := (.int 18000) }) })

/-- class_skills/healer/ast.py:466-470 `astral_draw` -/
def astral_draw (env : Env) : Py PyVal := do
  if env.lt .p70 then
    return .none
  return (← newSkill {
    name := (.str "Astral Draw")
    is_GCD := (.bool false)
    timing_spec := (← instantTimingSpec) })

/-- class_skills/healer/ast.py:472-476 `umbral_draw` -/
def umbral_draw (env : Env) : Py PyVal := do
  if env.lt .p70 then
    return .none
  return (← newSkill {
    name := (.str "Umbral Draw")
    is_GCD := (.bool false)
    timing_spec := (← instantTimingSpec) })

/-- class_skills/healer/ast.py:478-500 `__get_card_skill_655` -/
def get_card_skill_655 (_env : Env) (name : PyVal) (sign : PyVal) : Py PyVal := do
  return (← newSkill {
    name := name
    is_GCD := (.bool false)
    job_resource_spec := (mkDict [
      ((.str SimConsts.DEFAULT_CONDITION), (.tuple [(← newJobResourceSpec { name := sign, change := (← PyVal.pos (.int 1)) })])),
      ((.str "Big"), (.tuple [])),
      ((.str "Small"), (.tuple []))])
    timing_spec := (← instantTimingSpec)
    buff_spec := (mkDict [
      ((.str SimConsts.DEFAULT_CONDITION), .none),
      ((.str "Big"), (← newStatusEffectSpec {
        duration := (← PyVal.mul (.int 15) (.int 1000))
        damage_mult := (.float (106 / 100))
        is_party_effect := (.bool true) })),
      ((.str "Small"), (← newStatusEffectSpec {
        duration := (← PyVal.mul (.int 15) (.int 1000))
        damage_mult := (.float (103 / 100))
        is_party_effect := (.bool true) }))])
    off_class_default_condition := (.str "Big") })

/-- class_skills/healer/ast.py:502-524 `get_card_skills_655` -/
def get_card_skills_655 (env : Env) : Py PyVal := do
  let mut res : PyVal := .unbound
  if env.ne .p655 then
    return .none
  res := (.list [])
  let skill_and_resources : PyVal := (.tuple [
    (.tuple [(.str "the Arrow"), (.str "Moon")]),
    (.tuple [(.str "The Arrow"), (.str "Moon")]),
    (.tuple [(.str "the Ewer"), (.str "Moon")]),
    (.tuple [(.str "The Ewer"), (.str "Moon")]),
    (.tuple [(.str "the Balance"), (.str "Asterisk")]),
    (.tuple [(.str "The Balance"), (.str "Asterisk")]),
    (.tuple [(.str "the Bole"), (.str "Asterisk")]),
    (.tuple [(.str "The Bole"), (.str "Asterisk")]),
    (.tuple [(.str "the Spire"), (.str "Circle")]),
    (.tuple [(.str "The Spire"), (.str "Circle")]),
    (.tuple [(.str "the Spear"), (.str "Circle")]),
    (.tuple [(.str "The Spear"), (.str "Circle")])])
  for item in (← PyVal.iter skill_and_resources) do
    let sk : PyVal := (← PyVal.getItem item (.int 0))
    let resource : PyVal := (← PyVal.getItem item (.int 1))
    res := (← PyVal.append res (← get_card_skill_655 env sk resource))
  return res

/-- class_skills/healer/ast.py:526-533 `__get_non_damaging_card_skill` -/
def get_non_damaging_card_skill (_env : Env) (name : PyVal) : Py PyVal := do
  return (← newSkill {
    name := name
    is_GCD := (.bool false)
    timing_spec := (← newTimingSpec {
      base_cast_time := (.int 0)
      animation_lock := (.int 650)
      application_delay := (.int 620) }) })

/-- class_skills/healer/ast.py:534-551 `__get_damaging_card_skill` -/
def get_damaging_card_skill (_env : Env) (name : PyVal) : Py PyVal := do
  return (← newSkill {
    name := name
    is_GCD := (.bool false)
    timing_spec := (← newTimingSpec {
      base_cast_time := (.int 0)
      animation_lock := (.int 650)
      application_delay := (.int 620) })
    buff_spec := (mkDict [
      ((.str SimConsts.DEFAULT_CONDITION), .none),
      ((.str "Big"), (← newStatusEffectSpec {
        duration := (← PyVal.mul (.int 15) (.int 1000))
        damage_mult := (.float (106 / 100))
        is_party_effect := (.bool true) })),
      ((.str "Small"), (← newStatusEffectSpec {
        duration := (← PyVal.mul (.int 15) (.int 1000))
        damage_mult := (.float (103 / 100))
        is_party_effect := (.bool true) }))])
    off_class_default_condition := (.str "Big") })

/-- class_skills/healer/ast.py:553-580 `cards` -/
def cards (env : Env) : Py PyVal := do
  let mut res : PyVal := .unbound
  if env.lt .p70 then
    return .none
  res := (.list [])
  for card_name in (← PyVal.iter (.list [
    (.str "the Arrow"), (.str "The Arrow"), (.str "the Ewer"), (.str "The Ewer"),
    (.str "the Spire"), (.str "The Spire"), (.str "the Bole"), (.str "The Bole")])) do
    res := (← PyVal.append res (← get_non_damaging_card_skill env card_name))
  for card_name in (← PyVal.iter (.list [
    (.str "the Spear"), (.str "The Spear"), (.str "the Balance"), (.str "The Balance")])) do
    res := (← PyVal.append res (← get_damaging_card_skill env card_name))
  return res

/-- class_skills/healer/ast.py:582-590 `asterisk` -/
def asterisk (env : Env) : Py PyVal := do
  if env.ge .p70 then
    return .none
  let name : PyVal := (.str "Asterisk")
  let job_resource_settings : PyVal := (← newJobResourceSettings {
    max_value := (.int 1)
    skill_allowlist := (.tuple [(.str "Astrodyne")]) })
  return (.tuple [name, job_resource_settings])

/-- class_skills/healer/ast.py:592-600 `moon` -/
def moon (env : Env) : Py PyVal := do
  if env.ge .p70 then
    return .none
  let name : PyVal := (.str "Moon")
  let job_resource_settings : PyVal := (← newJobResourceSettings {
    max_value := (.int 1)
    skill_allowlist := (.tuple [(.str "Astrodyne")]) })
  return (.tuple [name, job_resource_settings])

/-- class_skills/healer/ast.py:602-610 `circle` -/
def circle (env : Env) : Py PyVal := do
  if env.ge .p70 then
    return .none
  let name : PyVal := (.str "Circle")
  let job_resource_settings : PyVal := (← newJobResourceSettings {
    max_value := (.int 1)
    skill_allowlist := (.tuple [(.str "Astrodyne")]) })
  return (.tuple [name, job_resource_settings])

/-- class_skills/healer/ast.py:19-610 `AstSkills`; the methods in the order of `dir`. -/
def job (env : Env) : JobClass where
  jobClass := "AST"
  skillMethods := [
    astral_draw env,
    astrodyne env,
    auto env,
    card env,
    cards env,
    collective_unconscious env,
    combust env,
    divination env,
    draw env,
    earthly_dominance env,
    earthly_star env,
    fall_malefic env,
    get_card_skills_655 env,
    giant_dominance env,
    gravity_ii env,
    helios_conjunction env,
    lightspeed env,
    lord_of_crowns env,
    macrocosmos env,
    minor_arcana env,
    oracle env,
    play env,
    redraw env,
    stellar_detonation env,
    swiftcast env,
    umbral_draw env]
  resourceMethods := [asterisk env, circle env, moon env]

end Ama.GameData.Ast
