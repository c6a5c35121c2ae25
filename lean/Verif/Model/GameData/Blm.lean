import Verif.Model.GameData.Values

/-!
# BLM

Model of `simulator/game_data/class_skills/caster/blm.py` and `simulator/game_data/class_skills/caster/blm_data.py`, written by
`tools/translate.py`: one function per method.  Paths in the comments are relative to
`simulator/game_data`.
-/

namespace Ama.GameData.Blm

open PyVal

/-- class_skills/caster/blm_data.py:7-192 `ALL_DATA` -/
def table : Table := [
  ("Enochian", [
    (90, [
      ("damage_mult", [(.p655, .ok (.float (123 / 100))), (.p705, .ok (.float (125 / 100)))])]),
    (100, [
      ("damage_mult", [
        (.p70, .ok (.float (13 / 10))),
        (.p705, .ok (.float (133 / 100))),
        (.p71, .ok (.float (132 / 100)))])])]),
  ("Thunder III", [
    (90, [
      ("potency", [(.p655, .ok (.int 50)), (.p70, .ok (.int 120))]),
      ("potency_thundercloud", [
        (.p655, do return (← PyVal.add (.int 50) (← PyVal.mul (.int 35) (.int 10))))]),
      ("cast_time", [(.p655, .ok (.int 2500)), (.p70, .ok (.int 0))])]),
    (100, [
      ("potency", [(.p70, .ok (.int 160)), (.p705, .ok (.int 120))]),
      ("cast_time", [(.p655, .ok (.int 2500)), (.p70, .ok (.int 0))])])]),
  ("Thunder III (dot)", [
    (90, [
      ("potency", [(.p655, .ok (.int 35)), (.p70, .ok (.int 50))]),
      ("duration", [
        (.p655, do return (← PyVal.mul (.int 30) (.int 1000))),
        (.p70, do return (← PyVal.mul (.int 27) (.int 1000)))])]),
    (100, [
      ("potency", [(.p70, .ok (.int 45)), (.p705, .ok (.int 50))]),
      ("duration", [(.p70, do return (← PyVal.mul (.int 27) (.int 1000)))])])]),
  ("Thunder IV", [
    (90, [
      ("potency", [(.p655, .ok (.int 50)), (.p70, .ok (.int 80))]),
      ("potency_thundercloud", [
        (.p655, do return (← PyVal.add (.int 50) (← PyVal.mul (.int 20) (.int 6))))]),
      ("cast_time", [(.p655, .ok (.int 2500)), (.p70, .ok (.int 0))])]),
    (100, [("potency", [(.p70, .ok (.int 80))]), ("cast_time", [(.p70, .ok (.int 0))])])]),
  ("Thunder IV (dot)", [
    (90, [
      ("potency", [(.p655, .ok (.int 20)), (.p70, .ok (.int 35))]),
      ("duration", [
        (.p655, do return (← PyVal.mul (.int 18) (.int 1000))),
        (.p70, do return (← PyVal.mul (.int 21) (.int 1000)))])]),
    (100, [
      ("potency", [(.p70, .ok (.int 35))]),
      ("duration", [(.p70, do return (← PyVal.mul (.int 21) (.int 1000)))])])]),
  ("High Thunder (dot)", [
    (100, [
      ("potency", [(.p70, .ok (.int 55)), (.p705, .ok (.int 60))]),
      ("duration", [(.p70, do return (← PyVal.mul (.int 30) (.int 1000)))])])]),
  ("High Thunder II (dot)", [
    (100, [
      ("potency", [(.p70, .ok (.int 40))]),
      ("duration", [(.p70, do return (← PyVal.mul (.int 24) (.int 1000)))])])]),
  ("Blizzard", [
    (90, [("potency", [(.p655, .ok (.int 180))])]),
    (100, [("potency", [(.p70, .ok (.int 180))])])]),
  ("Fire", [
    (90, [("potency", [(.p655, .ok (.int 180))])]),
    (100, [("potency", [(.p70, .ok (.int 180))])])]),
  ("Scathe", [
    (90, [("potency", [(.p655, .ok (.int 100))])]),
    (100, [("potency", [(.p70, .ok (.int 100))])])]),
  ("Fire III", [
    (90, [("potency", [(.p655, .ok (.int 260)), (.p70, .ok (.int 280))])]),
    (100, [("potency", [(.p70, .ok (.int 280))])])]),
  ("Blizzard III", [
    (90, [("potency", [(.p655, .ok (.int 260)), (.p70, .ok (.int 280))])]),
    (100, [("potency", [(.p70, .ok (.int 280))])])]),
  ("Freeze", [
    (90, [("potency", [(.p655, .ok (.int 120))])]),
    (100, [("potency", [(.p70, .ok (.int 120))])])]),
  ("Flare", [
    (90, [
      ("potency", [(.p655, .ok (.int 220)), (.p70, .ok (.int 240))]),
      ("potency_enhanced", [(.p655, .ok (.int 280))]),
      ("aoe_dropoff", [(.p655, .ok (.float (4 / 10))), (.p705, .ok (.float (3 / 10)))]),
      ("cast time", [(.p655, .ok (.int 4000)), (.p71, .ok (.int 3000))])]),
    (100, [
      ("potency", [(.p70, .ok (.int 240))]),
      ("aoe_dropoff", [(.p70, .ok (.float (4 / 10))), (.p705, .ok (.float (3 / 10)))]),
      ("cast time", [(.p70, .ok (.int 4000)), (.p71, .ok (.int 3000))])])]),
  ("Blizzard IV", [
    (90, [("potency", [(.p655, .ok (.int 310)), (.p705, .ok (.int 320))])]),
    (100, [("potency", [(.p70, .ok (.int 310)), (.p705, .ok (.int 320))])])]),
  ("Fire IV", [
    (90, [("potency", [(.p655, .ok (.int 310)), (.p705, .ok (.int 320))])]),
    (100, [("potency", [(.p70, .ok (.int 310)), (.p705, .ok (.int 320))])])]),
  ("Foul", [
    (90, [("potency", [(.p655, .ok (.int 600))])]),
    (100, [("potency", [(.p70, .ok (.int 600))])])]),
  ("Despair", [
    (90, [
      ("potency", [(.p655, .ok (.int 340)), (.p705, .ok (.int 350))]),
      ("cast time", [(.p655, .ok (.int 3000))])]),
    (100, [
      ("potency", [(.p70, .ok (.int 340)), (.p705, .ok (.int 350))]),
      ("cast time", [(.p70, .ok (.int 3000)), (.p71, .ok (.int 0))])])]),
  ("Xenoglossy", [
    (90, [("potency", [(.p655, .ok (.int 880))])]),
    (100, [("potency", [(.p70, .ok (.int 880))])])]),
  ("High Fire II", [
    (90, [("potency", [(.p655, .ok (.int 140)), (.p70, .ok (.int 100))])]),
    (100, [("potency", [(.p70, .ok (.int 100))])])]),
  ("High Blizzard II", [
    (90, [("potency", [(.p655, .ok (.int 140)), (.p70, .ok (.int 100))])]),
    (100, [("potency", [(.p70, .ok (.int 100))])])]),
  ("Paradox", [
    (90, [("potency", [(.p655, .ok (.int 500))])]),
    (100, [("potency", [(.p70, .ok (.int 500)), (.p705, .ok (.int 520))])])]),
  ("High Thunder", [
    (100, [("potency", [(.p70, .ok (.int 200)), (.p705, .ok (.int 150))])])]),
  ("High Thunder II", [(100, [("potency", [(.p70, .ok (.int 100))])])]),
  ("Flare Star", [(100, [("potency", [(.p70, .ok (.int 400))])])]),
  ("Firestarter", [
    (90, [("allowlist", [(.p655, .ok (.tuple [(.str "Fire")]))])]),
    (100, [("allowlist", [(.p70, .ok (.tuple [(.str "Fire III")]))])])]),
  ("Astral Fire", [
    (90, [
      ("allowlist", [
        (.p655, .ok (.tuple [
          (.str "Blizzard"), (.str "Transpose"), (.str "Fire"), (.str "Fire III"), (.str "Fire IV"),
          (.str "Blizzard IV"), (.str "Blizzard III"), (.str "Flare"), (.str "Despair"),
          (.str "High Fire II"), (.str "High Blizzard II"), (.str "Paradox")]))])]),
    (100, [
      ("allowlist", [
        (.p70, .ok (.tuple [
          (.str "Blizzard"), (.str "Transpose"), (.str "Fire"), (.str "Fire III"), (.str "Fire IV"),
          (.str "Blizzard IV"), (.str "Blizzard III"), (.str "Flare"), (.str "Despair"),
          (.str "High Fire II"), (.str "High Blizzard II"), (.str "Paradox"), (.str "Manafont"),
          (.str "Flare Star")]))])])]),
  ("Umbral Ice", [
    (90, [
      ("allowlist", [
        (.p655, .ok (.tuple [
          (.str "Blizzard"), (.str "Transpose"), (.str "Fire"), (.str "Fire III"), (.str "Fire IV"),
          (.str "Blizzard IV"), (.str "Blizzard III"), (.str "Flare"), (.str "Despair"),
          (.str "High Fire II"), (.str "High Blizzard II"), (.str "Paradox")]))])]),
    (100, [
      ("allowlist", [
        (.p70, .ok (.tuple [
          (.str "Blizzard"), (.str "Transpose"), (.str "Fire"), (.str "Fire III"), (.str "Fire IV"),
          (.str "Blizzard IV"), (.str "Blizzard III"), (.str "Flare"), (.str "Despair"),
          (.str "High Fire II"), (.str "High Blizzard II"), (.str "Paradox"), (.str "Manafont"),
          (.str "Flare Star")]))])])])]

/-- class_skills/caster/blm.py:25-25 `__blm_caster_tax_ms`, set by the constructor -/
def attr_blm_caster_tax_ms (_env : Env) : Py PyVal := do
  return (.int 100)

/-- class_skills/caster/blm.py:26-26 `__base_animation_lock`, set by the constructor -/
def attr_base_animation_lock (_env : Env) : Py PyVal := do
  return (.int 600)

/-- class_skills/caster/blm.py:27-29 `__blm_instant_timing_spec`, set by the constructor -/
def attr_blm_instant_timing_spec (env : Env) : Py PyVal := do
  return (← newTimingSpec {
    base_cast_time := (.int 0)
    animation_lock := (← attr_base_animation_lock env) })

/-- class_skills/caster/blm.py:31-33 `__af_skill_allowlist`, set by the constructor -/
def attr_af_skill_allowlist (env : Env) : Py PyVal := do
  return (← getSkillData table env (.str "Astral Fire") (.str "allowlist"))

/-- class_skills/caster/blm.py:34-36 `__ui_skill_allowlist`, set by the constructor -/
def attr_ui_skill_allowlist (env : Env) : Py PyVal := do
  return (← getSkillData table env (.str "Umbral Ice") (.str "allowlist"))

/-- class_skills/caster/blm.py:37-39 `__clear_umbral_ice`, set by the constructor -/
def attr_clear_umbral_ice (_env : Env) : Py PyVal := do
  return (← newJobResourceSpec {
    name := (.str "Umbral Ice")
    change := (← PyVal.neg (.inf))
    refreshes_duration_of_last_gained := (.bool true) })

/-- class_skills/caster/blm.py:40-42 `__clear_astral_fire`, set by the constructor -/
def attr_clear_astral_fire (_env : Env) : Py PyVal := do
  return (← newJobResourceSpec {
    name := (.str "Astral Fire")
    change := (← PyVal.neg (.inf))
    refreshes_duration_of_last_gained := (.bool true) })

/-- class_skills/caster/blm.py:94-107 `__get_enochian_buff_follow_up` -/
def get_enochian_buff_follow_up (env : Env) : Py PyVal := do
  let name : PyVal := (.str "Enochian")
  return (← newFollowUp {
    skill := (← newSkill {
      name := name
      is_GCD := (.bool false)
      buff_spec := (← newStatusEffectSpec {
        damage_mult := (← getSkillData table env name (.str "damage_mult"))
        duration := (← PyVal.mul (.int 15) (.int 1000)) }) })
    delay_after_parent_application := (.int 0)
    primary_target_only := (.bool true) })

/-- class_skills/caster/blm.py:43-43 `__enochian_buff_follow_up`, set by the constructor -/
def attr_enochian_buff_follow_up (env : Env) : Py PyVal := do
  return (← get_enochian_buff_follow_up env)

/-- class_skills/caster/blm.py:45-92 `__get_fire_job_resource_spec` -/
def get_fire_job_resource_spec (_env : Env) : Py PyVal := do
  return (mkDict [
    ((.str SimConsts.DEFAULT_CONDITION), (.tuple [
      (← newJobResourceSpec { name := (.str "Astral Fire"), change := (← PyVal.pos (.int 1)) })])),
    ((.str "1 Astral Fire"), (.tuple [
      (← newJobResourceSpec {
        name := (.str "Astral Fire")
        change := (← PyVal.pos (.int 1))
        refreshes_duration_of_last_gained := (.bool true) })])),
    ((.str "2 Astral Fire"), (.tuple [
      (← newJobResourceSpec {
        name := (.str "Astral Fire")
        change := (← PyVal.pos (.int 1))
        refreshes_duration_of_last_gained := (.bool true) })])),
    ((.str "3 Astral Fire"), (.tuple [
      (← newJobResourceSpec {
        name := (.str "Astral Fire")
        change := (← PyVal.pos (.int 1))
        refreshes_duration_of_last_gained := (.bool true) })])),
    ((.str "1 Umbral Ice"), (.tuple [
      (← newJobResourceSpec {
        name := (.str "Umbral Ice")
        change := (← PyVal.neg (.inf))
        refreshes_duration_of_last_gained := (.bool true) })])),
    ((.str "2 Umbral Ice"), (.tuple [
      (← newJobResourceSpec {
        name := (.str "Umbral Ice")
        change := (← PyVal.neg (.inf))
        refreshes_duration_of_last_gained := (.bool true) })])),
    ((.str "3 Umbral Ice"), (.tuple [
      (← newJobResourceSpec {
        name := (.str "Umbral Ice")
        change := (← PyVal.neg (.inf))
        refreshes_duration_of_last_gained := (.bool true) })]))])

/-- class_skills/caster/blm.py:109-117 `astral_fire` -/
def astral_fire (env : Env) : Py PyVal := do
  let name : PyVal := (.str "Astral Fire")
  let job_resource_settings : PyVal := (← newJobResourceSettings {
    max_value := (.int 3)
    expiry_from_last_gain := (← PyVal.mul (.int 15) (.int 1000))
    skill_allowlist := (← attr_af_skill_allowlist env) })
  return (.tuple [name, job_resource_settings])

/-- class_skills/caster/blm.py:119-127 `umbral_ice` -/
def umbral_ice (env : Env) : Py PyVal := do
  let name : PyVal := (.str "Umbral Ice")
  let job_resource_settings : PyVal := (← newJobResourceSettings {
    max_value := (.int 3)
    expiry_from_last_gain := (← PyVal.mul (.int 15) (.int 1000))
    skill_allowlist := (← attr_ui_skill_allowlist env) })
  return (.tuple [name, job_resource_settings])

/-- class_skills/caster/blm.py:129-130 `get_status_effect_priority` -/
def get_status_effect_priority (_env : Env) : Py PyVal := do
  return (.tuple [(.str "Swiftcast"), (.str "Triplecast")])

/-- class_skills/caster/blm.py:132-171 `__get_enochian_damage_spec_cross` -/
def get_enochian_damage_spec_cross (_env : Env) (base_potency : PyVal) (is_fire_spell : PyVal) : Py PyVal := do
  let mut res : PyVal := .unbound
  let mut potency_modifier : PyVal := .unbound
  res := (mkDict [])
  let elem_strs : PyVal := (.list [
    (.str "1 Astral Fire"), (.str "2 Astral Fire"), (.str "3 Astral Fire"),
    (.str "1 Umbral Ice"), (.str "2 Umbral Ice"), (.str "3 Umbral Ice")])
  let fire_potency_modifiers : PyVal := (mkDict [
    ((.str "1 Astral Fire"), (.float (14 / 10))),
    ((.str "2 Astral Fire"), (.float (16 / 10))),
    ((.str "3 Astral Fire"), (.float (18 / 10))),
    ((.str "1 Umbral Ice"), (.float (9 / 10))),
    ((.str "2 Umbral Ice"), (.float (8 / 10))),
    ((.str "3 Umbral Ice"), (.float (7 / 10)))])
  let ice_potency_modifiers : PyVal := (mkDict [
    ((.str "1 Astral Fire"), (.float (9 / 10))),
    ((.str "2 Astral Fire"), (.float (8 / 10))),
    ((.str "3 Astral Fire"), (.float (7 / 10))),
    ((.str "1 Umbral Ice"), (.int 1)),
    ((.str "2 Umbral Ice"), (.int 1)),
    ((.str "3 Umbral Ice"), (.int 1))])
  res := (← PyVal.setItem res (.str SimConsts.DEFAULT_CONDITION) (← newDamageSpec { potency := base_potency }))
  for elem_str in (← PyVal.iter elem_strs) do
    potency_modifier := (← ifExp ((← truthy is_fire_spell))
      (do return (← PyVal.getItem fire_potency_modifiers elem_str))
      (do return (← PyVal.getItem ice_potency_modifiers elem_str)))
    res := (← PyVal.setItem res elem_str (← newDamageSpec { potency := base_potency, single_damage_mult := potency_modifier }))
  return res

/-- class_skills/caster/blm.py:173-230 `__get_enochian_timing_spec_cross` -/
def get_enochian_timing_spec_cross (env : Env) (base_cast_time : PyVal) (is_fire_spell : PyVal) (application_delay : PyVal) : Py PyVal := do
  let mut res : PyVal := .unbound
  let mut animation_lock_overflow : PyVal := .unbound
  let mut cast_modifier : PyVal := .unbound
  res := (mkDict [])
  let elem_strs : PyVal := (.list [
    (.str "1 Astral Fire"), (.str "2 Astral Fire"), (.str "3 Astral Fire"),
    (.str "1 Umbral Ice"), (.str "2 Umbral Ice"), (.str "3 Umbral Ice")])
  let fire_cast_time_modifiers : PyVal := (mkDict [
    ((.str "1 Astral Fire"), (.int 1)),
    ((.str "2 Astral Fire"), (.int 1)),
    ((.str "3 Astral Fire"), (.int 1)),
    ((.str "1 Umbral Ice"), (.int 1)),
    ((.str "2 Umbral Ice"), (.int 1)),
    ((.str "3 Umbral Ice"), (.float (5 / 10)))])
  let ice_cast_time_modifiers : PyVal := (mkDict [
    ((.str "1 Astral Fire"), (.int 1)),
    ((.str "2 Astral Fire"), (.int 1)),
    ((.str "3 Astral Fire"), (.float (5 / 10))),
    ((.str "1 Umbral Ice"), (.int 1)),
    ((.str "2 Umbral Ice"), (.int 1)),
    ((.str "3 Umbral Ice"), (.int 1))])
  animation_lock_overflow := (← PyVal.max (.int 0) (← PyVal.sub (← attr_base_animation_lock env) (← PyVal.min base_cast_time (.int 500))))
  res := (← PyVal.setItem res (.str SimConsts.DEFAULT_CONDITION) (← newTimingSpec {
    base_cast_time := base_cast_time
    animation_lock := animation_lock_overflow
    application_delay := application_delay }))
  for elem_str in (← PyVal.iter elem_strs) do
    cast_modifier := (← ifExp ((← truthy is_fire_spell))
      (do return (← PyVal.getItem fire_cast_time_modifiers elem_str))
      (do return (← PyVal.getItem ice_cast_time_modifiers elem_str)))
    animation_lock_overflow := (← PyVal.max (.int 0) (← PyVal.sub (← attr_base_animation_lock env) (← PyVal.min (← PyVal.toInt (← PyVal.mul cast_modifier base_cast_time)) (.int 500))))
    res := (← PyVal.setItem res elem_str (← newTimingSpec {
      base_cast_time := (← PyVal.toInt (← PyVal.mul cast_modifier base_cast_time))
      animation_lock := animation_lock_overflow
      application_delay := application_delay }))
  return res

/-- class_skills/caster/blm.py:232-242 `auto` -/
def auto (_env : Env) : Py PyVal := do
  let name : PyVal := (.str "Auto")
  return (← newSkill {
    name := name
    is_GCD := (.bool false)
    timing_spec := (← autoTimingSpec)
    damage_spec := (← newDamageSpec {
      potency := (.int 90)
      damage_class := (.damageClass .auto)
      trait_damage_mult_override := (.int 1) }) })

/-- class_skills/caster/blm.py:244-262 `__get_thunder_iii_dot_follow_up` -/
def get_thunder_iii_dot_follow_up (env : Env) : Py PyVal := do
  let name : PyVal := (.str "Thunder (dot)")
  return (← newFollowUp {
    skill := (← newSkill {
      name := name
      is_GCD := (.bool false)
      damage_spec := (← newDamageSpec {
        potency := (← getPotency table env (.str "Thunder III (dot)"))
        damage_class := (.damageClass .magicalDot) }) })
    delay_after_parent_application := (.int 0)
    dot_duration := (← getSkillData table env (.str "Thunder III (dot)") (.str "duration"))
    snapshot_buffs_with_parent := (.bool true)
    snapshot_debuffs_with_parent := (.bool true) })

/-- class_skills/caster/blm.py:264-283 `__get_thunder_iv_dot_follow_up` -/
def get_thunder_iv_dot_follow_up (env : Env) : Py PyVal := do
  let name : PyVal := (.str "Thunder (dot)")
  return (← newFollowUp {
    skill := (← newSkill {
      name := name
      is_GCD := (.bool false)
      damage_spec := (← newDamageSpec {
        potency := (← getPotency table env (.str "Thunder IV (dot)"))
        damage_class := (.damageClass .magicalDot) }) })
    delay_after_parent_application := (.int 0)
    dot_duration := (← getSkillData table env (.str "Thunder IV (dot)") (.str "duration"))
    snapshot_buffs_with_parent := (.bool true)
    snapshot_debuffs_with_parent := (.bool true)
    primary_target_only := (.bool false) })

/-- class_skills/caster/blm.py:285-345 `blizzard` -/
def blizzard (env : Env) : Py PyVal := do
  let name : PyVal := (.str "Blizzard")
  return (← newSkill {
    name := name
    is_GCD := (.bool true)
    damage_spec := (← get_enochian_damage_spec_cross env (← getPotency table env name) (.bool false))
    timing_spec := (← get_enochian_timing_spec_cross env (.int 2500) (.bool false) (.int 840))
    job_resource_spec := (mkDict [
      ((.str SimConsts.DEFAULT_CONDITION), (.tuple [
        (← newJobResourceSpec { name := (.str "Umbral Ice"), change := (← PyVal.pos (.int 1)) })])),
      ((.str "1 Astral Fire"), (.tuple [
        (← newJobResourceSpec {
          name := (.str "Astral Fire")
          change := (← PyVal.neg (.inf))
          refreshes_duration_of_last_gained := (.bool true) })])),
      ((.str "2 Astral Fire"), (.tuple [
        (← newJobResourceSpec {
          name := (.str "Astral Fire")
          change := (← PyVal.neg (.inf))
          refreshes_duration_of_last_gained := (.bool true) })])),
      ((.str "3 Astral Fire"), (.tuple [
        (← newJobResourceSpec {
          name := (.str "Astral Fire")
          change := (← PyVal.neg (.inf))
          refreshes_duration_of_last_gained := (.bool true) })])),
      ((.str "1 Umbral Ice"), (.tuple [
        (← newJobResourceSpec {
          name := (.str "Umbral Ice")
          change := (← PyVal.pos (.int 1))
          refreshes_duration_of_last_gained := (.bool true) })])),
      ((.str "2 Umbral Ice"), (.tuple [
        (← newJobResourceSpec {
          name := (.str "Umbral Ice")
          change := (← PyVal.pos (.int 1))
          refreshes_duration_of_last_gained := (.bool true) })])),
      ((.str "3 Umbral Ice"), (.tuple [
        (← newJobResourceSpec {
          name := (.str "Umbral Ice")
          change := (← PyVal.pos (.int 1))
          refreshes_duration_of_last_gained := (.bool true) })]))])
    follow_up_skills := (.tuple [(← attr_enochian_buff_follow_up env)]) })

/-- class_skills/caster/blm.py:347-359 `__get_firestart_follow_up` -/
def get_firestart_follow_up (env : Env) : Py PyVal := do
  let name : PyVal := (.str "Firestarter")
  let firestarter_buff : PyVal := (← newSkill {
    name := name
    is_GCD := (.bool false)
    buff_spec := (← newStatusEffectSpec {
      add_to_skill_modifier_condition := (.bool true)
      num_uses := (.int 1)
      duration := (← PyVal.mul (.int 30) (.int 1000))
      skill_allowlist := (← getSkillData table env name (.str "allowlist")) }) })
  return (← newFollowUp { skill := firestarter_buff, delay_after_parent_application := (.int 10) })

/-- class_skills/caster/blm.py:361-377 `firestarter` -/
def firestarter (env : Env) : Py PyVal := do
  let name : PyVal := (.str "Firestarter")
  return (← newSkill {
    name := name
    is_GCD := (.bool false)
    timing_spec := (← newTimingSpec {
      base_cast_time := (.int 0)
      animation_lock := (.int 0)
      application_delay := (.int 0) })
    buff_spec := (← newStatusEffectSpec {
      add_to_skill_modifier_condition := (.bool true)
      num_uses := (.int 1)
      duration := (← PyVal.mul (.int 30) (.int 1000))
      skill_allowlist := (← getSkillData table env name (.str "allowlist")) }) })

/-- class_skills/caster/blm.py:379-393 `__get_thundercloud_follow_up` -/
def get_thundercloud_follow_up (env : Env) : Py PyVal := do
  if env.ge .p70 then
    return .none
  let name : PyVal := (.str "Thundercloud")
  let thundercloud_buff : PyVal := (← newSkill {
    name := name
    is_GCD := (.bool false)
    buff_spec := (← newStatusEffectSpec {
      add_to_skill_modifier_condition := (.bool true)
      num_uses := (.int 1)
      duration := (← PyVal.mul (.int 40) (.int 1000))
      skill_allowlist := (.tuple [(.str "Thunder III"), (.str "Thunder IV")]) }) })
  return (← newFollowUp {
    skill := thundercloud_buff
    delay_after_parent_application := (.int 10) })

/-- class_skills/caster/blm.py:395-413 `thundercloud` -/
def thundercloud (env : Env) : Py PyVal := do
  if env.ge .p70 then
    return .none
  let name : PyVal := (.str "Thundercloud")
  return (← newSkill {
    name := name
    is_GCD := (.bool false)
    timing_spec := (← newTimingSpec {
      base_cast_time := (.int 0)
      animation_lock := (.int 0)
      application_delay := (.int 0) })
    buff_spec := (← newStatusEffectSpec {
      add_to_skill_modifier_condition := (.bool true)
      num_uses := (.int 1)
      duration := (← PyVal.mul (.int 40) (.int 1000))
      skill_allowlist := (.tuple [(.str "Thunder III"), (.str "Thunder IV")]) }) })

/-- class_skills/caster/blm.py:415-459 `high_fire_ii` -/
def high_fire_ii (env : Env) : Py PyVal := do
  let enhanced_flare_follow_up : PyVal := (← ifExp (env.ge .p70)
    (.ok .none)
    (do return (← newFollowUp {
        skill := (← newSkill {
          name := (.str "Enhanced")
          is_GCD := (.bool false)
          buff_spec := (← newStatusEffectSpec {
            add_to_skill_modifier_condition := (.bool true)
            num_uses := (.int 1)
            duration := (.inf)
            skill_allowlist := (.tuple [(.str "Flare")]) }) })
        delay_after_parent_application := (.int 10) })))
  let name : PyVal := (.str "High Fire II")
  return (← newSkill {
    name := name
    is_GCD := (.bool true)
    damage_spec := (← get_enochian_damage_spec_cross env (← getPotency table env name) (.bool true))
    timing_spec := (← get_enochian_timing_spec_cross env (.int 3000) (.bool true) (.int 1160))
    job_resource_spec := (.tuple [
      (← attr_clear_umbral_ice env),
      (← newJobResourceSpec {
        name := (.str "Astral Fire")
        change := (← PyVal.pos (.int 3))
        refreshes_duration_of_last_gained := (.bool true) })])
    follow_up_skills := (← ifExp (env.ge .p70)
      (do return (.tuple [(← attr_enochian_buff_follow_up env)]))
      (do return (.tuple [enhanced_flare_follow_up, (← attr_enochian_buff_follow_up env)])))
    has_aoe := (.bool true) })

/-- class_skills/caster/blm.py:461-506 `fire` -/
def fire (env : Env) : Py PyVal := do
  let mut fire_job_resource_spec : PyVal := .unbound
  let mut fire_damage_spec : PyVal := .unbound
  let mut fire_timing_spec : PyVal := .unbound
  let mut fire_keys : PyVal := .unbound
  let mut assembled_str : PyVal := .unbound
  let name : PyVal := (.str "Fire")
  let firestarter_follow_up : PyVal := (← get_firestart_follow_up env)
  fire_job_resource_spec := (← get_fire_job_resource_spec env)
  fire_damage_spec := (← get_enochian_damage_spec_cross env (← getPotency table env name) (.bool true))
  fire_timing_spec := (← get_enochian_timing_spec_cross env (.int 2500) (.bool true) (.int 1030))
  if env.lt .p70 then
    fire_keys := (← PyVal.toTuple (← PyVal.keys fire_damage_spec))
    for k in (← PyVal.iter fire_keys) do
      assembled_str := (← ifExp (PyVal.keyEq k (.str SimConsts.DEFAULT_CONDITION))
        (.ok (.str "Sharpcast"))
        (.ok (.str "{k}, Sharpcast")))
      fire_damage_spec := (← PyVal.setItem fire_damage_spec assembled_str (← PyVal.getItem fire_damage_spec k))
      fire_timing_spec := (← PyVal.setItem fire_timing_spec assembled_str (← PyVal.getItem fire_timing_spec k))
      fire_job_resource_spec := (← PyVal.setItem fire_job_resource_spec assembled_str (← PyVal.getItem fire_job_resource_spec k))
  return (← newSkill {
    name := name
    is_GCD := (.bool true)
    damage_spec := fire_damage_spec
    timing_spec := fire_timing_spec
    job_resource_spec := fire_job_resource_spec
    follow_up_skills := (← ifExp (env.lt .p70)
      (do return (mkDict [
          ((.str SimConsts.DEFAULT_CONDITION), (.tuple [(← attr_enochian_buff_follow_up env)])),
          ((.str "Sharpcast"), (.tuple [firestarter_follow_up, (← attr_enochian_buff_follow_up env)]))]))
      (do return (mkDict [
          ((.str SimConsts.DEFAULT_CONDITION), (.tuple [(← attr_enochian_buff_follow_up env)])),
          ((.str "Firestarter"), (.tuple [firestarter_follow_up, (← attr_enochian_buff_follow_up env)]))]))) })

/-- class_skills/caster/blm.py:508-537 `scathe` -/
def scathe (env : Env) : Py PyVal := do
  let name : PyVal := (.str "Scathe")
  return (← newSkill {
    name := name
    is_GCD := (.bool true)
    damage_spec := (← ifExp (env.ge .p70)
      (do return (mkDict [
          ((.str SimConsts.DEFAULT_CONDITION), (← newDamageSpec { potency := (← getPotency table env name) })),
          ((.str "2x"), (← newDamageSpec { potency := (← PyVal.mul (.int 2) (← getPotency table env name)) }))]))
      (do return (mkDict [
          ((.str SimConsts.DEFAULT_CONDITION), (← newDamageSpec { potency := (← getPotency table env name) })),
          ((.str "2x"), (← newDamageSpec { potency := (← PyVal.mul (.int 2) (← getPotency table env name)) })),
          ((.str "Sharpcast"), (← newDamageSpec { potency := (← PyVal.mul (.int 2) (← getPotency table env name)) }))])))
    timing_spec := (← newTimingSpec {
      base_cast_time := (.int 0)
      animation_lock := (← attr_base_animation_lock env)
      application_delay := (.int 670) }) })

/-- class_skills/caster/blm.py:539-575 `fire_iii` -/
def fire_iii (env : Env) : Py PyVal := do
  let mut fire_iii_damage_spec : PyVal := .unbound
  let mut fire_iii_timing_spec : PyVal := .unbound
  let mut assembled_str : PyVal := .unbound
  let name : PyVal := (.str "Fire III")
  fire_iii_damage_spec := (← get_enochian_damage_spec_cross env (← getPotency table env name) (.bool true))
  fire_iii_timing_spec := (← get_enochian_timing_spec_cross env (.int 3500) (.bool true) (.int 1290))
  let fire_iii_keys : PyVal := (← PyVal.toTuple (← PyVal.keys fire_iii_damage_spec))
  for k in (← PyVal.iter fire_iii_keys) do
    assembled_str := (← ifExp (PyVal.keyEq k (.str SimConsts.DEFAULT_CONDITION))
      (.ok (.str "Firestarter"))
      (do return (← PyVal.fstring [k, (.str ", Firestarter")])))
    fire_iii_damage_spec := (← PyVal.setItem fire_iii_damage_spec assembled_str (← PyVal.getItem fire_iii_damage_spec k))
    fire_iii_timing_spec := (← PyVal.setItem fire_iii_timing_spec assembled_str (← newTimingSpec {
      base_cast_time := (.int 0)
      animation_lock := (← attr_base_animation_lock env)
      application_delay := (.int 1290) }))
  return (← newSkill {
    name := name
    is_GCD := (.bool true)
    damage_spec := fire_iii_damage_spec
    timing_spec := fire_iii_timing_spec
    job_resource_spec := (.tuple [
      (← attr_clear_umbral_ice env),
      (← newJobResourceSpec {
        name := (.str "Astral Fire")
        change := (← PyVal.pos (.int 3))
        refreshes_duration_of_last_gained := (.bool true) })])
    follow_up_skills := (.tuple [(← attr_enochian_buff_follow_up env)]) })

/-- class_skills/caster/blm.py:577-597 `blizzard_iii` -/
def blizzard_iii (env : Env) : Py PyVal := do
  let name : PyVal := (.str "Blizzard III")
  return (← newSkill {
    name := name
    is_GCD := (.bool true)
    damage_spec := (← get_enochian_damage_spec_cross env (← getPotency table env name) (.bool false))
    timing_spec := (← get_enochian_timing_spec_cross env (.int 3500) (.bool false) (.int 840))
    buff_spec := (← newStatusEffectSpec { expires_status_effects := (.tuple [(.str "Enhanced")]) })
    job_resource_spec := (.tuple [
      (← attr_clear_astral_fire env),
      (← newJobResourceSpec {
        name := (.str "Umbral Ice")
        change := (← PyVal.pos (.int 3))
        refreshes_duration_of_last_gained := (.bool true) })])
    follow_up_skills := (.tuple [(← attr_enochian_buff_follow_up env)]) })

/-- class_skills/caster/blm.py:599-612 `freeze` -/
def freeze (env : Env) : Py PyVal := do
  let name : PyVal := (.str "Freeze")
  return (← newSkill {
    name := name
    is_GCD := (.bool true)
    damage_spec := (← get_enochian_damage_spec_cross env (← getPotency table env name) (.bool false))
    timing_spec := (← get_enochian_timing_spec_cross env (.int 2800) (.bool false) (.int 620))
    has_aoe := (.bool true) })

/-- class_skills/caster/blm.py:614-675 `thunder_iii` -/
def thunder_iii (env : Env) : Py PyVal := do
  let name : PyVal := (.str "Thunder III")
  let thunderiii_follow_up : PyVal := (← get_thunder_iii_dot_follow_up env)
  let thundercloud_follow_up : PyVal := (← ifExp (env.ge .p70) (.ok .none) (do return (← get_thundercloud_follow_up env)))
  return (← newSkill {
    name := name
    is_GCD := (.bool true)
    damage_spec := (← ifExp (env.ge .p70)
      (do return (← newDamageSpec { potency := (← getPotency table env name) }))
      (do return (mkDict [
          ((.str SimConsts.DEFAULT_CONDITION), (← newDamageSpec { potency := (← getPotency table env name) })),
          ((.str "Thundercloud"), (← newDamageSpec {
            potency := (← getSkillData table env name (.str "potency_thundercloud")) }))])))
    timing_spec := (← ifExp (env.ge .p70)
      (do return (← newTimingSpec {
          base_cast_time := (.int 2500)
          animation_lock := (← attr_blm_caster_tax_ms env)
          application_delay := (.int 1030) }))
      (do return (mkDict [
          ((.str SimConsts.DEFAULT_CONDITION), (← newTimingSpec {
            base_cast_time := (← getSkillData table env name (.str "cast_time"))
            animation_lock := (← attr_blm_caster_tax_ms env)
            application_delay := (.int 1030) })),
          ((.str "Thundercloud"), (← newTimingSpec {
            base_cast_time := (.int 0)
            animation_lock := (← attr_base_animation_lock env)
            application_delay := (.int 1030) }))])))
    follow_up_skills := (← ifExp (env.ge .p70)
      (.ok (.tuple [thunderiii_follow_up]))
      (.ok (mkDict [
          ((.str SimConsts.DEFAULT_CONDITION), (.tuple [thunderiii_follow_up])),
          ((.str "Thundercloud"), (.tuple [thunderiii_follow_up])),
          ((.str "Sharpcast"), (.tuple [thunderiii_follow_up, thundercloud_follow_up])),
          ((.str "Sharpcast, Thundercloud"), (.tuple [thunderiii_follow_up, thundercloud_follow_up]))]))) })

/-- class_skills/caster/blm.py:677-735 `flare` -/
def flare (env : Env) : Py PyVal := do
  let mut flare_damage_spec : PyVal := .unbound
  let mut enhanced_flare_potency : PyVal := .unbound
  let mut assemebled_str : PyVal := .unbound
  let mut flare_timing_spec : PyVal := .unbound
  let mut assembled_str : PyVal := .unbound
  let name : PyVal := (.str "Flare")
  let flare_elem_mults : PyVal := (mkDict [
    ((.str "1 Astral Fire"), (.float (14 / 10))),
    ((.str "2 Astral Fire"), (.float (16 / 10))),
    ((.str "3 Astral Fire"), (.float (18 / 10))),
    ((.str "1 Umbral Ice"), (.float (9 / 10))),
    ((.str "2 Umbral Ice"), (.float (8 / 10))),
    ((.str "3 Umbral Ice"), (.float (7 / 10)))])
  flare_damage_spec := (← get_enochian_damage_spec_cross env (← getPotency table env name) (.bool true))
  if env.lt .p70 then
    enhanced_flare_potency := (← getSkillData table env name (.str "potency_enhanced"))
    flare_damage_spec := (← PyVal.setItem flare_damage_spec (.str "Enhanced") (← newDamageSpec { potency := enhanced_flare_potency }))
    flare_damage_spec := (← PyVal.setItem flare_damage_spec (.str "Enhanced, Triplecast") (← newDamageSpec { potency := enhanced_flare_potency }))
    for item in (← PyVal.iter (← PyVal.items flare_elem_mults)) do
      let k : PyVal := (← PyVal.getItem item (.int 0))
      let potency_modifier : PyVal := (← PyVal.getItem item (.int 1))
      assemebled_str := (← PyVal.fstring [k, (.str ", Enhanced")])
      flare_damage_spec := (← PyVal.setItem flare_damage_spec assemebled_str (← newDamageSpec {
        potency := (← PyVal.toInt (← PyVal.mul potency_modifier enhanced_flare_potency)) }))
      assemebled_str := (← PyVal.fstring [k, (.str ", Enhanced, Triplecast")])
      flare_damage_spec := (← PyVal.setItem flare_damage_spec assemebled_str (← newDamageSpec {
        potency := (← PyVal.toInt (← PyVal.mul potency_modifier enhanced_flare_potency)) }))
  flare_timing_spec := (← get_enochian_timing_spec_cross env (← getSkillData table env name (.str "cast time")) (.bool true) (.int 1160))
  let flare_timing_keys : PyVal := (← PyVal.toTuple (← PyVal.keys flare_timing_spec))
  for k in (← PyVal.iter flare_timing_keys) do
    assembled_str := (← PyVal.fstring [k, (.str ", Enhanced")])
    flare_timing_spec := (← PyVal.setItem flare_timing_spec assembled_str (← PyVal.getItem flare_timing_spec k))
  return (← newSkill {
    name := name
    is_GCD := (.bool true)
    damage_spec := flare_damage_spec
    timing_spec := flare_timing_spec
    job_resource_spec := (.tuple [
      (← attr_clear_umbral_ice env),
      (← newJobResourceSpec {
        name := (.str "Astral Fire")
        change := (← PyVal.pos (.int 3))
        refreshes_duration_of_last_gained := (.bool true) })])
    follow_up_skills := (.tuple [(← attr_enochian_buff_follow_up env)])
    has_aoe := (.bool true)
    aoe_dropoff := (← getSkillData table env name (.str "aoe_dropoff")) })

/-- class_skills/caster/blm.py:737-749 `ley_lines` -/
def ley_lines (env : Env) : Py PyVal := do
  let name : PyVal := (.str "Ley Lines")
  return (← newSkill {
    name := name
    is_GCD := (.bool false)
    timing_spec := (← attr_blm_instant_timing_spec env)
    buff_spec := (← newStatusEffectSpec {
      haste_time_reduction := (.float (15 / 100))
      auto_attack_delay_reduction := (.float (15 / 100))
      duration := (← PyVal.mul (.int 30) (.int 1000)) }) })

/-- class_skills/caster/blm.py:751-763 `blizzard_iv` -/
def blizzard_iv (env : Env) : Py PyVal := do
  let name : PyVal := (.str "Blizzard IV")
  return (← newSkill {
    name := name
    is_GCD := (.bool true)
    damage_spec := (← get_enochian_damage_spec_cross env (← getPotency table env name) (.bool false))
    timing_spec := (← get_enochian_timing_spec_cross env (.int 2500) (.bool false) (.int 1160)) })

/-- class_skills/caster/blm.py:765-777 `fire_iv` -/
def fire_iv (env : Env) : Py PyVal := do
  let name : PyVal := (.str "Fire IV")
  return (← newSkill {
    name := name
    is_GCD := (.bool true)
    damage_spec := (← get_enochian_damage_spec_cross env (← getPotency table env name) (.bool true))
    timing_spec := (← get_enochian_timing_spec_cross env (.int 2800) (.bool true) (.int 1160)) })

/-- class_skills/caster/blm.py:779-837 `thunder_iv` -/
def thunder_iv (env : Env) : Py PyVal := do
  let name : PyVal := (.str "Thunder IV")
  let thunderiv_follow_up : PyVal := (← get_thunder_iv_dot_follow_up env)
  let thundercloud_follow_up : PyVal := (← get_thundercloud_follow_up env)
  return (← newSkill {
    name := name
    is_GCD := (.bool true)
    damage_spec := (← ifExp (env.ge .p70)
      (do return (← newDamageSpec { potency := (← getPotency table env name) }))
      (do return (mkDict [
          ((.str SimConsts.DEFAULT_CONDITION), (← newDamageSpec { potency := (← getPotency table env name) })),
          ((.str "Thundercloud"), (← newDamageSpec {
            potency := (← getSkillData table env name (.str "potency_thundercloud")) }))])))
    timing_spec := (← ifExp (env.ge .p70)
      (do return (← newTimingSpec {
          base_cast_time := (.int 2500)
          animation_lock := (← attr_blm_caster_tax_ms env)
          application_delay := (.int 1160) }))
      (do return (mkDict [
          ((.str SimConsts.DEFAULT_CONDITION), (← newTimingSpec {
            base_cast_time := (← getSkillData table env name (.str "cast_time"))
            animation_lock := (← attr_blm_caster_tax_ms env)
            application_delay := (.int 1160) })),
          ((.str "Thundercloud"), (← newTimingSpec {
            base_cast_time := (.int 0)
            animation_lock := (← attr_blm_caster_tax_ms env)
            application_delay := (.int 1160) }))])))
    follow_up_skills := (← ifExp (env.ge .p70)
      (.ok (.tuple [thunderiv_follow_up]))
      (.ok (mkDict [
          ((.str SimConsts.DEFAULT_CONDITION), (.tuple [thunderiv_follow_up])),
          ((.str "Thundercloud"), (.tuple [thunderiv_follow_up])),
          ((.str "Sharpcast"), (.tuple [thunderiv_follow_up, thundercloud_follow_up])),
          ((.str "Sharpcast, Thundercloud"), (.tuple [thunderiv_follow_up, thundercloud_follow_up]))])))
    has_aoe := (.bool true) })

/-- class_skills/caster/blm.py:839-853 `foul` -/
def foul (env : Env) : Py PyVal := do
  let name : PyVal := (.str "Foul")
  return (← newSkill {
    name := name
    is_GCD := (.bool true)
    damage_spec := (← newDamageSpec { potency := (← getPotency table env name) })
    timing_spec := (← newTimingSpec {
      base_cast_time := (.int 0)
      animation_lock := (← attr_base_animation_lock env)
      application_delay := (.int 1160) })
    has_aoe := (.bool true)
    aoe_dropoff := (.float (6 / 10)) })

/-- class_skills/caster/blm.py:855-879 `despair` -/
def despair (env : Env) : Py PyVal := do
  let name : PyVal := (.str "Despair")
  return (← newSkill {
    name := name
    is_GCD := (.bool true)
    damage_spec := (← get_enochian_damage_spec_cross env (← getPotency table env name) (.bool true))
    timing_spec := (← get_enochian_timing_spec_cross env (← getSkillData table env name (.str "cast time")) (.bool true) (.int 490))
    job_resource_spec := (.tuple [
      (← attr_clear_umbral_ice env),
      (← newJobResourceSpec {
        name := (.str "Astral Fire")
        change := (← PyVal.pos (.int 3))
        refreshes_duration_of_last_gained := (.bool true) })])
    follow_up_skills := (.tuple [(← attr_enochian_buff_follow_up env)]) })

/-- class_skills/caster/blm.py:881-893 `xenoglossys` -/
def xenoglossys (env : Env) : Py PyVal := do
  let name : PyVal := (.str "Xenoglossy")
  return (← newSkill {
    name := name
    is_GCD := (.bool true)
    damage_spec := (← newDamageSpec { potency := (← getPotency table env name) })
    timing_spec := (← newTimingSpec {
      base_cast_time := (.int 0)
      animation_lock := (← attr_base_animation_lock env)
      application_delay := (.int 620) }) })

/-- class_skills/caster/blm.py:895-916 `high_blizzard_ii` -/
def high_blizzard_ii (env : Env) : Py PyVal := do
  let name : PyVal := (.str "High Blizzard II")
  return (← newSkill {
    name := name
    is_GCD := (.bool true)
    damage_spec := (← get_enochian_damage_spec_cross env (← getPotency table env name) (.bool false))
    timing_spec := (← get_enochian_timing_spec_cross env (.int 3000) (.bool false) (.int 1160))
    buff_spec := (← newStatusEffectSpec { expires_status_effects := (.tuple [(.str "Enhanced")]) })
    job_resource_spec := (.tuple [
      (← attr_clear_astral_fire env),
      (← newJobResourceSpec {
        name := (.str "Umbral Ice")
        change := (← PyVal.pos (.int 3))
        refreshes_duration_of_last_gained := (.bool true) })])
    follow_up_skills := (.tuple [(← attr_enochian_buff_follow_up env)])
    has_aoe := (.bool true) })

/-- class_skills/caster/blm.py:918-1033 `paradox` -/
def paradox (env : Env) : Py PyVal := do
  let name : PyVal := (.str "Paradox")
  let paradox_base_timing_spec : PyVal := (← ifExp (env.lt .p70)
    (do return (← newTimingSpec {
        base_cast_time := (.int 2500)
        animation_lock := (← attr_blm_caster_tax_ms env)
        application_delay := (.int 670) }))
    (.ok .none))
  let paradox_umbral_timing_spec : PyVal := (← ifExp (env.lt .p70)
    (do return (← newTimingSpec {
        base_cast_time := (.int 0)
        animation_lock := (← attr_base_animation_lock env)
        application_delay := (.int 670) }))
    (.ok .none))
  let firestarter_follow_up : PyVal := (← get_firestart_follow_up env)
  return (← newSkill {
    name := name
    is_GCD := (.bool true)
    damage_spec := (← newDamageSpec { potency := (← getPotency table env name) })
    timing_spec := (← ifExp (env.lt .p70)
      (.ok (mkDict [
          ((.str SimConsts.DEFAULT_CONDITION), paradox_base_timing_spec),
          ((.str "1 Astral Fire"), paradox_base_timing_spec),
          ((.str "2 Astral Fire"), paradox_base_timing_spec),
          ((.str "3 Astral Fire"), paradox_base_timing_spec),
          ((.str "1 Umbral Ice"), paradox_umbral_timing_spec),
          ((.str "2 Umbral Ice"), paradox_umbral_timing_spec),
          ((.str "3 Umbral Ice"), paradox_umbral_timing_spec)]))
      (do return (← newTimingSpec {
          base_cast_time := (.int 0)
          animation_lock := (← attr_base_animation_lock env)
          application_delay := (.int 670) })))
    job_resource_spec := (mkDict [
      ((.str SimConsts.DEFAULT_CONDITION), (.tuple [])),
      ((.str "1 Astral Fire"), (.tuple [
        (← newJobResourceSpec {
          name := (.str "Astral Fire")
          change := (← PyVal.pos (.int 1))
          refreshes_duration_of_last_gained := (.bool true) })])),
      ((.str "2 Astral Fire"), (.tuple [
        (← newJobResourceSpec {
          name := (.str "Astral Fire")
          change := (← PyVal.pos (.int 1))
          refreshes_duration_of_last_gained := (.bool true) })])),
      ((.str "3 Astral Fire"), (.tuple [
        (← newJobResourceSpec {
          name := (.str "Astral Fire")
          change := (← PyVal.pos (.int 1))
          refreshes_duration_of_last_gained := (.bool true) })])),
      ((.str "1 Umbral Ice"), (.tuple [
        (← newJobResourceSpec {
          name := (.str "Umbral Ice")
          change := (← PyVal.pos (.int 1))
          refreshes_duration_of_last_gained := (.bool true) })])),
      ((.str "2 Umbral Ice"), (.tuple [
        (← newJobResourceSpec {
          name := (.str "Umbral Ice")
          change := (← PyVal.pos (.int 1))
          refreshes_duration_of_last_gained := (.bool true) })])),
      ((.str "3 Umbral Ice"), (.tuple [
        (← newJobResourceSpec {
          name := (.str "Umbral Ice")
          change := (← PyVal.pos (.int 1))
          refreshes_duration_of_last_gained := (.bool true) })]))])
    follow_up_skills := (← ifExp (env.ge .p70)
      (do return (mkDict [
          ((.str SimConsts.DEFAULT_CONDITION), (.tuple [(← attr_enochian_buff_follow_up env)])),
          ((.str "1 Astral Fire"), (.tuple [(← attr_enochian_buff_follow_up env), firestarter_follow_up])),
          ((.str "2 Astral Fire"), (.tuple [(← attr_enochian_buff_follow_up env), firestarter_follow_up])),
          ((.str "3 Astral Fire"), (.tuple [(← attr_enochian_buff_follow_up env), firestarter_follow_up]))]))
      (do return (mkDict [
          ((.str SimConsts.DEFAULT_CONDITION), (.tuple [(← attr_enochian_buff_follow_up env)])),
          ((.str "Sharpcast"), (.tuple [firestarter_follow_up, (← attr_enochian_buff_follow_up env)]))]))) })

/-- class_skills/caster/blm.py:1035-1067 `high_thunder` -/
def high_thunder (env : Env) : Py PyVal := do
  if decide (env.level < 92) then
    return .none
  let high_thunder_follow_up : PyVal := (← newFollowUp {
    skill := (← newSkill {
      name := (.str "Thunder (dot)")
      is_GCD := (.bool false)
      damage_spec := (← newDamageSpec {
        potency := (← getPotency table env (.str "High Thunder (dot)"))
        damage_class := (.damageClass .magicalDot) }) })
    delay_after_parent_application := (.int 0)
    dot_duration := (← getSkillData table env (.str "High Thunder (dot)") (.str "duration"))
    snapshot_buffs_with_parent := (.bool true)
    snapshot_debuffs_with_parent := (.bool true) })
  let name : PyVal := (.str "High Thunder")
  return (← newSkill {
    name := name
    is_GCD := (.bool true)
    damage_spec := (← newDamageSpec { potency := (← getPotency table env name) })
    timing_spec := (← newTimingSpec {
      base_cast_time := (.int 2500)
      animation_lock := (← attr_blm_caster_tax_ms env)
      application_delay := (.int 760) })
    follow_up_skills := (.tuple [high_thunder_follow_up]) })

/-- class_skills/caster/blm.py:1069-1102 `high_thunder_ii` -/
def high_thunder_ii (env : Env) : Py PyVal := do
  if decide (env.level < 92) then
    return .none
  let high_thunder_ii_follow_up : PyVal := (← newFollowUp {
    skill := (← newSkill {
      name := (.str "Thunder (dot)")
      is_GCD := (.bool false)
      damage_spec := (← newDamageSpec {
        potency := (← getPotency table env (.str "High Thunder II (dot)"))
        damage_class := (.damageClass .magicalDot) }) })
    delay_after_parent_application := (.int 0)
    dot_duration := (← getSkillData table env (.str "High Thunder II (dot)") (.str "duration"))
    snapshot_buffs_with_parent := (.bool true)
    snapshot_debuffs_with_parent := (.bool true)
    primary_target_only := (.bool false) })
  let name : PyVal := (.str "High Thunder II")
  return (← newSkill {
    name := name
    is_GCD := (.bool true)
    damage_spec := (← newDamageSpec { potency := (← getPotency table env name) })
    timing_spec := (← newTimingSpec {
      base_cast_time := (.int 2500)
      animation_lock := (← attr_blm_caster_tax_ms env)
      application_delay := (.int 760) })
    follow_up_skills := (.tuple [high_thunder_ii_follow_up])
    has_aoe := (.bool true) })

/-- class_skills/caster/blm.py:1104-1122 `flare_star` -/
def flare_star (env : Env) : Py PyVal := do
  if decide (env.level < 100) then
    return .none
  let name : PyVal := (.str "Flare Star")
  let flare_star_damage_spec : PyVal := (← get_enochian_damage_spec_cross env (← getPotency table env name) (.bool true))
  let flare_star_timing_spec : PyVal := (← get_enochian_timing_spec_cross env (.int 3000) (.bool true) (.int 620))
  return (← newSkill {
    name := name
    is_GCD := (.bool true)
    damage_spec := flare_star_damage_spec
    timing_spec := flare_star_timing_spec
    has_aoe := (.bool true)
    aoe_dropoff := (.float (65 / 100)) })

/-- class_skills/caster/blm.py:1124-1172 `swiftcast` -/
def swiftcast (env : Env) : Py PyVal := do
  let name : PyVal := (.str "Swiftcast")
  return (← newSkill {
    name := name
    is_GCD := (.bool false)
    timing_spec := (← attr_blm_instant_timing_spec env)
    buff_spec := (← newStatusEffectSpec {
      flat_cast_time_reduction := (.inf)
      duration := (← PyVal.mul (.int 10) (.int 1000))
      num_uses := (.int 1)
      skill_allowlist := (← ifExp (env.ge .p71)
        (.ok (.tuple [
            (.str "Thunder III"), (.str "Thunder IV"), (.str "Blizzard"), (.str "High Blizzard II"),
            (.str "Blizzard III"), (.str "Blizzard IV"), (.str "Freeze"), (.str "Fire"),
            (.str "High Fire II"), (.str "Fire III"), (.str "Fire IV"), (.str "Flare"),
            (.str "Paradox"), (.str "Flare Star")]))
        (.ok (.tuple [
            (.str "Thunder III"), (.str "Thunder IV"), (.str "Blizzard"), (.str "High Blizzard II"),
            (.str "Blizzard III"), (.str "Blizzard IV"), (.str "Freeze"), (.str "Fire"),
            (.str "High Fire II"), (.str "Fire III"), (.str "Fire IV"), (.str "Despair"),
            (.str "Flare"), (.str "Paradox"), (.str "Flare Star")]))) }) })

/-- class_skills/caster/blm.py:1174-1222 `triplecast` -/
def triplecast (env : Env) : Py PyVal := do
  let name : PyVal := (.str "Triplecast")
  return (← newSkill {
    name := name
    is_GCD := (.bool false)
    timing_spec := (← attr_blm_instant_timing_spec env)
    buff_spec := (← newStatusEffectSpec {
      flat_cast_time_reduction := (.inf)
      duration := (← PyVal.mul (.int 10) (.int 1000))
      num_uses := (.int 3)
      skill_allowlist := (← ifExp (env.ge .p71)
        (.ok (.tuple [
            (.str "Thunder III"), (.str "Thunder IV"), (.str "Blizzard"), (.str "High Blizzard II"),
            (.str "Blizzard III"), (.str "Blizzard IV"), (.str "Freeze"), (.str "Fire"),
            (.str "High Fire II"), (.str "Fire III"), (.str "Fire IV"), (.str "Flare"),
            (.str "Paradox"), (.str "Flare Star")]))
        (.ok (.tuple [
            (.str "Thunder III"), (.str "Thunder IV"), (.str "Blizzard"), (.str "High Blizzard II"),
            (.str "Blizzard III"), (.str "Blizzard IV"), (.str "Freeze"), (.str "Fire"),
            (.str "High Fire II"), (.str "Fire III"), (.str "Fire IV"), (.str "Despair"),
            (.str "Flare"), (.str "Paradox"), (.str "Flare Star")]))) }) })

/-- class_skills/caster/blm.py:1224-1299 `transpose` -/
def transpose (env : Env) : Py PyVal := do
  let name : PyVal := (.str "Transpose")
  return (← newSkill {
    name := name
    is_GCD := (.bool false)
    timing_spec := (← attr_blm_instant_timing_spec env)
    buff_spec := (← ifExp (env.ge .p70)
      (.ok .none)
      (do return (mkDict [
          ((.str SimConsts.DEFAULT_CONDITION), .none),
          ((.str "1 Umbral Ice"), (← newStatusEffectSpec { expires_status_effects := (.tuple [(.str "Enhanced")]) })),
          ((.str "2 Umbral Ice"), (← newStatusEffectSpec { expires_status_effects := (.tuple [(.str "Enhanced")]) })),
          ((.str "3 Umbral Ice"), (← newStatusEffectSpec { expires_status_effects := (.tuple [(.str "Enhanced")]) }))])))
    job_resource_spec := (mkDict [
      ((.str SimConsts.DEFAULT_CONDITION), (.tuple [])),
      ((.str "1 Astral Fire"), (.tuple [
        (← attr_clear_astral_fire env),
        (← newJobResourceSpec {
          name := (.str "Umbral Ice")
          change := (← PyVal.pos (.int 1))
          refreshes_duration_of_last_gained := (.bool true) })])),
      ((.str "2 Astral Fire"), (.tuple [
        (← attr_clear_astral_fire env),
        (← newJobResourceSpec {
          name := (.str "Umbral Ice")
          change := (← PyVal.pos (.int 1))
          refreshes_duration_of_last_gained := (.bool true) })])),
      ((.str "3 Astral Fire"), (.tuple [
        (← attr_clear_astral_fire env),
        (← newJobResourceSpec {
          name := (.str "Umbral Ice")
          change := (← PyVal.pos (.int 1))
          refreshes_duration_of_last_gained := (.bool true) })])),
      ((.str "1 Umbral Ice"), (.tuple [
        (← attr_clear_umbral_ice env),
        (← newJobResourceSpec {
          name := (.str "Astral Fire")
          change := (← PyVal.pos (.int 1))
          refreshes_duration_of_last_gained := (.bool true) })])),
      ((.str "2 Umbral Ice"), (.tuple [
        (← attr_clear_umbral_ice env),
        (← newJobResourceSpec {
          name := (.str "Astral Fire")
          change := (← PyVal.pos (.int 1))
          refreshes_duration_of_last_gained := (.bool true) })])),
      ((.str "3 Umbral Ice"), (.tuple [
        (← attr_clear_umbral_ice env),
        (← newJobResourceSpec {
          name := (.str "Astral Fire")
          change := (← PyVal.pos (.int 1))
          refreshes_duration_of_last_gained := (.bool true) })]))])
    follow_up_skills := (.tuple [(← attr_enochian_buff_follow_up env)]) })

/-- class_skills/caster/blm.py:1301-1322 `sharpcast` -/
def sharpcast (env : Env) : Py PyVal := do
  if env.ge .p70 then
    return .none
  let name : PyVal := (.str "Sharpcast")
  return (← newSkill {
    name := name
    is_GCD := (.bool false)
    timing_spec := (← attr_blm_instant_timing_spec env)
    buff_spec := (← newStatusEffectSpec {
      add_to_skill_modifier_condition := (.bool true)
      num_uses := (.int 1)
      duration := (← PyVal.mul (.int 30) (.int 1000))
      skill_allowlist := (.tuple [
        (.str "Scathe"), (.str "Fire"), (.str "Paradox"), (.str "Thunder III"),
        (.str "Thunder IV")]) }) })

/-- class_skills/caster/blm.py:1328-1347 `manafont` -/
def manafont (env : Env) : Py PyVal := do
  let name : PyVal := (.str "Manafont")
  return (← newSkill {
    name := name
    is_GCD := (.bool false)
    timing_spec := (← attr_blm_instant_timing_spec env)
    job_resource_spec := (← ifExp (env.ge .p70)
      (do return (.tuple [
          (← attr_clear_umbral_ice env),
          (← newJobResourceSpec {
            name := (.str "Astral Fire")
            change := (← PyVal.pos (.int 3))
            refreshes_duration_of_last_gained := (.bool true) })]))
      (.ok (.tuple []))) })

/-- class_skills/caster/blm.py:1349-1354 `umbral_soul` -/
def umbral_soul (env : Env) : Py PyVal := do
  let name : PyVal := (.str "Umbral Soul")
  return (← newSkill {
    name := name
    is_GCD := (.bool false)
    timing_spec := (← attr_blm_instant_timing_spec env) })

/-- class_skills/caster/blm.py:1356-1361 `amplifier` -/
def amplifier (env : Env) : Py PyVal := do
  let name : PyVal := (.str "Amplifier")
  return (← newSkill {
    name := name
    is_GCD := (.bool false)
    timing_spec := (← attr_blm_instant_timing_spec env) })

/-- class_skills/caster/blm.py:20-1361 `BlmSkills`; the methods in the order of `dir`. -/
def job (env : Env) : JobClass where
  jobClass := "BLM"
  init := do
    let _ ← attr_blm_caster_tax_ms env
    let _ ← attr_base_animation_lock env
    let _ ← attr_blm_instant_timing_spec env
    let _ ← attr_af_skill_allowlist env
    let _ ← attr_ui_skill_allowlist env
    let _ ← attr_clear_umbral_ice env
    let _ ← attr_clear_astral_fire env
    let _ ← attr_enochian_buff_follow_up env
  priority := get_status_effect_priority env
  skillMethods := [
    amplifier env,
    auto env,
    blizzard env,
    blizzard_iii env,
    blizzard_iv env,
    despair env,
    fire env,
    fire_iii env,
    fire_iv env,
    firestarter env,
    flare env,
    flare_star env,
    foul env,
    freeze env,
    high_blizzard_ii env,
    high_fire_ii env,
    high_thunder env,
    high_thunder_ii env,
    ley_lines env,
    manafont env,
    paradox env,
    scathe env,
    sharpcast env,
    swiftcast env,
    thunder_iii env,
    thunder_iv env,
    thundercloud env,
    transpose env,
    triplecast env,
    umbral_soul env,
    xenoglossys env]
  resourceMethods := [astral_fire env, umbral_ice env]

end Ama.GameData.Blm
