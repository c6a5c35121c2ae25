import Verif.Model.GameData.Values

/-!
# SMN

Model of `simulator/game_data/class_skills/caster/smn.py` and `simulator/game_data/class_skills/caster/smn_data.py`, written by
`tools/translate.py`: one function per method.  Paths in the comments are relative to
`simulator/game_data`.
-/

namespace Ama.GameData.Smn

open PyVal

/-- class_skills/caster/smn_data.py:7-88 `ALL_DATA` -/
def table : Table := [
  ("Fester", [(90, [("potency", [(.p655, .ok (.int 340))])])]),
  ("Energy Drain", [
    (90, [("potency", [(.p655, .ok (.int 200))])]),
    (100, [("potency", [(.p70, .ok (.int 200))])])]),
  ("Painflare", [
    (90, [("potency", [(.p655, .ok (.int 150))])]),
    (100, [("potency", [(.p70, .ok (.int 150))])])]),
  ("Energy Siphon", [
    (90, [("potency", [(.p655, .ok (.int 100))])]),
    (100, [("potency", [(.p70, .ok (.int 100))])])]),
  ("Ruin III", [
    (90, [
      ("potency", [(.p655, .ok (.int 310))]),
      ("potency_aethercharge", [(.p655, .ok (.int 360))])]),
    (100, [
      ("potency", [(.p70, .ok (.int 360))]),
      ("potency_aethercharge", [(.p70, .ok (.int 410))])])]),
  ("Astral Impulse", [
    (90, [("potency", [(.p655, .ok (.int 440))])]),
    (100, [("potency", [(.p70, .ok (.int 500))])])]),
  ("Astral Flare", [
    (90, [("potency", [(.p655, .ok (.int 180))])]),
    (100, [("potency", [(.p70, .ok (.int 180))])])]),
  ("Deathflare", [
    (90, [("potency", [(.p655, .ok (.int 500))])]),
    (100, [("potency", [(.p70, .ok (.int 500))])])]),
  ("Ruin IV", [
    (90, [("potency", [(.p655, .ok (.int 430))])]),
    (100, [("potency", [(.p70, .ok (.int 490))])])]),
  ("Searing Light", [
    (90, [
      ("damage_mult", [(.p655, .ok (.float (103 / 100))), (.p70, .ok (.float (105 / 100)))]),
      ("duration", [
        (.p655, do return (← PyVal.mul (.int 30) (.int 1000))),
        (.p70, do return (← PyVal.mul (.int 20) (.int 1000)))])]),
    (100, [
      ("damage_mult", [(.p655, .ok (.float (105 / 100)))]),
      ("duration", [(.p655, do return (← PyVal.mul (.int 20) (.int 1000)))])])]),
  ("Akh Morn (pet)", [
    (90, [("potency", [(.p655, .ok (.int 1300))])]),
    (100, [("potency", [(.p70, .ok (.int 1300))])])]),
  ("Ruby Rite", [
    (90, [("potency", [(.p655, .ok (.int 510))])]),
    (100, [("potency", [(.p70, .ok (.int 540))])])]),
  ("Topaz Rite", [
    (90, [("potency", [(.p655, .ok (.int 330))])]),
    (100, [("potency", [(.p70, .ok (.int 340))])])]),
  ("Emerald Rite", [
    (90, [("potency", [(.p655, .ok (.int 230))])]),
    (100, [("potency", [(.p70, .ok (.int 240))])])]),
  ("Tri-disaster", [
    (90, [("potency", [(.p655, .ok (.int 120))])]),
    (100, [("potency", [(.p70, .ok (.int 120))])])]),
  ("Fountain of Fire", [
    (90, [("potency", [(.p655, .ok (.int 540))])]),
    (100, [("potency", [(.p70, .ok (.int 580))])])]),
  ("Brand of Purgatory", [
    (90, [("potency", [(.p655, .ok (.int 240))])]),
    (100, [("potency", [(.p70, .ok (.int 240))])])]),
  ("Revelation (pet)", [
    (90, [("potency", [(.p655, .ok (.int 1300))])]),
    (100, [("potency", [(.p70, .ok (.int 1300))])])]),
  ("Ruby Catastrophe", [
    (90, [("potency", [(.p655, .ok (.int 210))])]),
    (100, [("potency", [(.p70, .ok (.int 210))])])]),
  ("Topaz Catastrophe", [
    (90, [("potency", [(.p655, .ok (.int 140))])]),
    (100, [("potency", [(.p70, .ok (.int 140))])])]),
  ("Emerald Catastrophe", [
    (90, [("potency", [(.p655, .ok (.int 100))])]),
    (100, [("potency", [(.p70, .ok (.int 100))])])]),
  ("Crimson Cyclone", [
    (90, [("potency", [(.p655, .ok (.int 430))])]),
    (100, [("potency", [(.p70, .ok (.int 490))])])]),
  ("Crimson Strike", [
    (90, [("potency", [(.p655, .ok (.int 430))])]),
    (100, [("potency", [(.p70, .ok (.int 490))])])]),
  ("Mountain Buster", [
    (90, [("potency", [(.p655, .ok (.int 150))])]),
    (100, [("potency", [(.p70, .ok (.int 160))])])]),
  ("Slipstream (dot)", [
    (90, [("potency", [(.p655, .ok (.int 30))])]),
    (100, [("potency", [(.p70, .ok (.int 30))])])]),
  ("Slipstream", [
    (90, [("potency", [(.p655, .ok (.int 430))])]),
    (100, [("potency", [(.p70, .ok (.int 490))])])]),
  ("Inferno (pet)", [
    (90, [("potency", [(.p655, .ok (.int 750))])]),
    (100, [("potency", [(.p70, .ok (.int 750)), (.p71, .ok (.int 800))])])]),
  ("Earthen Fury (pet)", [
    (90, [("potency", [(.p655, .ok (.int 750))])]),
    (100, [("potency", [(.p70, .ok (.int 750)), (.p71, .ok (.int 800))])])]),
  ("Aerial Blast (pet)", [
    (90, [("potency", [(.p655, .ok (.int 750))])]),
    (100, [("potency", [(.p70, .ok (.int 750)), (.p71, .ok (.int 800))])])]),
  ("Scarlet Flame (pet)", [
    (90, [("potency", [(.p655, .ok (.int 150))])]),
    (100, [("potency", [(.p70, .ok (.int 150))])])]),
  ("Necrotize", [(100, [("potency", [(.p70, .ok (.int 420)), (.p705, .ok (.int 440))])])]),
  ("Searing Flash", [(100, [("potency", [(.p70, .ok (.int 600))])])]),
  ("Wyrmwave (pet)", [
    (90, [("potency", [(.p655, .ok (.int 150))])]),
    (100, [("potency", [(.p70, .ok (.int 150))])])]),
  ("Luxwave", [(100, [("potency", [(.p70, .ok (.int 160))])])]),
  ("Umbral Impulse", [
    (100, [("potency", [(.p70, .ok (.int 600)), (.p705, .ok (.int 620))])])]),
  ("Umbral Flare", [(100, [("potency", [(.p70, .ok (.int 280))])])]),
  ("Sunflare", [
    (100, [
      ("potency", [(.p70, .ok (.int 600)), (.p705, .ok (.int 700)), (.p71, .ok (.int 800))])])]),
  ("Exodus (pet)", [(100, [("potency", [(.p70, .ok (.int 1400))])])])]

/-- class_skills/caster/smn.py:22-22 `__smn_caster_tax_ms`, set by the constructor -/
def attr_smn_caster_tax_ms (_env : Env) : Py PyVal := do
  return (.int 100)

/-- class_skills/caster/smn.py:23-23 `__base_animation_lock`, set by the constructor -/
def attr_base_animation_lock (_env : Env) : Py PyVal := do
  return (.int 600)

/-- class_skills/caster/smn.py:24-26 `__smn_instant_timing_spec`, set by the constructor -/
def attr_smn_instant_timing_spec (env : Env) : Py PyVal := do
  return (← newTimingSpec {
    base_cast_time := (.int 0)
    animation_lock := (← attr_base_animation_lock env) })

/-- class_skills/caster/smn.py:28-38 `auto` -/
def auto (_env : Env) : Py PyVal := do
  let name : PyVal := (.str "Auto")
  return (← newSkill {
    name := name
    is_GCD := (.bool false)
    timing_spec := (← autoTimingSpec)
    damage_spec := (← newDamageSpec {
      potency := (.int 90)
      damage_class := (.damageClass .auto)
      trait_damage_mult_override := (.int 1) }) })

/-- class_skills/caster/smn.py:40-54 `fester` -/
def fester (env : Env) : Py PyVal := do
  if decide (env.level ≥ 92) then
    return .none
  let name : PyVal := (.str "Fester")
  return (← newSkill {
    name := name
    is_GCD := (.bool false)
    damage_spec := (← newDamageSpec { potency := (← getPotency table env name) })
    timing_spec := (← newTimingSpec {
      base_cast_time := (.int 0)
      animation_lock := (← attr_base_animation_lock env)
      application_delay := (.int 930) }) })

/-- class_skills/caster/smn.py:56-68 `energy_drain` -/
def energy_drain (env : Env) : Py PyVal := do
  let name : PyVal := (.str "Energy Drain")
  return (← newSkill {
    name := name
    is_GCD := (.bool false)
    damage_spec := (← newDamageSpec { potency := (← getPotency table env name) })
    timing_spec := (← newTimingSpec {
      base_cast_time := (.int 0)
      animation_lock := (← PyVal.add (← attr_base_animation_lock env) (← attr_smn_caster_tax_ms env))
      application_delay := (.int 1070) }) })

/-- class_skills/caster/smn.py:70-83 `painflare` -/
def painflare (env : Env) : Py PyVal := do
  let name : PyVal := (.str "Painflare")
  return (← newSkill {
    name := name
    is_GCD := (.bool false)
    damage_spec := (← newDamageSpec { potency := (← getPotency table env name) })
    timing_spec := (← newTimingSpec {
      base_cast_time := (.int 0)
      animation_lock := (← PyVal.add (← attr_base_animation_lock env) (← attr_smn_caster_tax_ms env))
      application_delay := (.int 440) })
    has_aoe := (.bool true) })

/-- class_skills/caster/smn.py:85-98 `energy_siphon` -/
def energy_siphon (env : Env) : Py PyVal := do
  let name : PyVal := (.str "Energy Siphon")
  return (← newSkill {
    name := name
    is_GCD := (.bool false)
    damage_spec := (← newDamageSpec { potency := (← getPotency table env name) })
    timing_spec := (← newTimingSpec {
      base_cast_time := (.int 0)
      animation_lock := (← attr_base_animation_lock env)
      application_delay := (.int 1020) })
    has_aoe := (.bool true) })

/-- class_skills/caster/smn.py:100-121 `ruin_iii` -/
def ruin_iii (env : Env) : Py PyVal := do
  let name : PyVal := (.str "Ruin III")
  return (← newSkill {
    name := name
    is_GCD := (.bool true)
    damage_spec := (mkDict [
      ((.str SimConsts.DEFAULT_CONDITION), (← newDamageSpec { potency := (← getPotency table env name) })),
      ((.str "Aethercharge"), (← newDamageSpec {
        potency := (← getSkillData table env name (.str "potency_aethercharge")) }))])
    timing_spec := (← newTimingSpec {
      base_cast_time := (.int 1500)
      animation_lock := (← attr_smn_caster_tax_ms env)
      application_delay := (.int 800) }) })

/-- class_skills/caster/smn.py:123-135 `astral_impulse` -/
def astral_impulse (env : Env) : Py PyVal := do
  let name : PyVal := (.str "Astral Impulse")
  return (← newSkill {
    name := name
    is_GCD := (.bool true)
    damage_spec := (← newDamageSpec { potency := (← getPotency table env name) })
    timing_spec := (← newTimingSpec {
      base_cast_time := (.int 0)
      animation_lock := (← attr_base_animation_lock env)
      application_delay := (.int 670) }) })

/-- class_skills/caster/smn.py:137-150 `astral_flare` -/
def astral_flare (env : Env) : Py PyVal := do
  let name : PyVal := (.str "Astral Flare")
  return (← newSkill {
    name := name
    is_GCD := (.bool true)
    damage_spec := (← newDamageSpec { potency := (← getPotency table env name) })
    timing_spec := (← newTimingSpec {
      base_cast_time := (.int 0)
      animation_lock := (← attr_base_animation_lock env)
      application_delay := (.int 540) })
    has_aoe := (.bool true) })

/-- class_skills/caster/smn.py:152-170 `deathflare` -/
def deathflare (env : Env) : Py PyVal := do
  let name : PyVal := (.str "Deathflare")
  return (← newSkill {
    name := name
    is_GCD := (.bool false)
    damage_spec := (mkDict [
      ((.str SimConsts.DEFAULT_CONDITION), (← newDamageSpec { potency := (← getPotency table env name) }))])
    timing_spec := (← newTimingSpec {
      base_cast_time := (.int 0)
      animation_lock := (← attr_base_animation_lock env)
      application_delay := (.int 800) })
    has_aoe := (.bool true)
    aoe_dropoff := (.float (6 / 10)) })

/-- class_skills/caster/smn.py:172-190 `ruin_iv` -/
def ruin_iv (env : Env) : Py PyVal := do
  let name : PyVal := (.str "Ruin IV")
  return (← newSkill {
    name := name
    is_GCD := (.bool true)
    damage_spec := (mkDict [
      ((.str SimConsts.DEFAULT_CONDITION), (← newDamageSpec { potency := (← getPotency table env name) }))])
    timing_spec := (← newTimingSpec {
      base_cast_time := (.int 0)
      animation_lock := (← attr_base_animation_lock env)
      application_delay := (.int 800) })
    has_aoe := (.bool true)
    aoe_dropoff := (.float (6 / 10)) })

/-- class_skills/caster/smn.py:192-204 `searing_light` -/
def searing_light (env : Env) : Py PyVal := do
  let name : PyVal := (.str "Searing Light")
  return (← newSkill {
    name := name
    is_GCD := (.bool false)
    buff_spec := (← newStatusEffectSpec {
      damage_mult := (← getSkillData table env name (.str "damage_mult"))
      duration := (← getSkillData table env name (.str "duration"))
      is_party_effect := (.bool true) })
    timing_spec := (← attr_smn_instant_timing_spec env) })

/-- class_skills/caster/smn.py:206-227 `__get_akh_morn_for_follow_up` -/
def get_akh_morn_for_follow_up (env : Env) : Py PyVal := do
  let name : PyVal := (.str "Akh Morn (pet)")
  return (← newFollowUp {
    skill := (← newSkill {
      name := name
      is_GCD := (.bool false)
      damage_spec := (mkDict [
        ((.str SimConsts.DEFAULT_CONDITION), (← newDamageSpec {
          potency := (← getPotency table env name)
          damage_class := (.damageClass .pet)
          pet_job_mod_override := (.int 100)
          pet_scalar := (.float (88 / 100)) }))])
      has_aoe := (.bool true)
      aoe_dropoff := (.float (6 / 10)) })
    delay_after_parent_application := (.int 0)
    snapshot_buffs_with_parent := (.bool false)
    snapshot_debuffs_with_parent := (.bool false)
    primary_target_only := (.bool false) })

/-- class_skills/caster/smn.py:229-237 `enkindle_bahamut` -/
def enkindle_bahamut (env : Env) : Py PyVal := do
  let name : PyVal := (.str "Enkindle Bahamut")
  return (← newSkill {
    name := name
    is_GCD := (.bool false)
    timing_spec := (← attr_smn_instant_timing_spec env)
    follow_up_skills := (.tuple [(← get_akh_morn_for_follow_up env)]) })

/-- class_skills/caster/smn.py:239-247 `akh_morn` -/
def akh_morn (env : Env) : Py PyVal := do
  let name : PyVal := (.str "Akh Morn")
  return (← newSkill {
    name := name
    is_GCD := (.bool false)
    timing_spec := (← attr_smn_instant_timing_spec env)
    follow_up_skills := (.tuple [(← get_akh_morn_for_follow_up env)]) })

/-- class_skills/caster/smn.py:249-262 `ruby_rite` -/
def ruby_rite (env : Env) : Py PyVal := do
  let name : PyVal := (.str "Ruby Rite")
  return (← newSkill {
    name := name
    is_GCD := (.bool true)
    damage_spec := (← newDamageSpec { potency := (← getPotency table env name) })
    timing_spec := (← newTimingSpec {
      base_cast_time := (.int 2800)
      gcd_base_recast_time := (.int 3000)
      animation_lock := (← attr_smn_caster_tax_ms env)
      application_delay := (.int 620) }) })

/-- class_skills/caster/smn.py:264-277 `topaz_rite` -/
def topaz_rite (env : Env) : Py PyVal := do
  let name : PyVal := (.str "Topaz Rite")
  return (← newSkill {
    name := name
    is_GCD := (.bool true)
    damage_spec := (← newDamageSpec { potency := (← getPotency table env name) })
    timing_spec := (← newTimingSpec {
      base_cast_time := (.int 0)
      gcd_base_recast_time := (.int 2500)
      animation_lock := (← attr_base_animation_lock env)
      application_delay := (.int 620) }) })

/-- class_skills/caster/smn.py:279-295 `emerald_rite` -/
def emerald_rite (env : Env) : Py PyVal := do
  let name : PyVal := (.str "Emerald Rite")
  return (← newSkill {
    name := name
    is_GCD := (.bool true)
    damage_spec := (← newDamageSpec { potency := (← getPotency table env name) })
    timing_spec := (← newTimingSpec {
      base_cast_time := (.int 0)
      gcd_base_recast_time := (.int 1500)
      animation_lock := (← attr_base_animation_lock env)
      application_delay := (.int 620)
      affected_by_speed_stat := (.bool false)
      affected_by_haste_buffs := (.bool false) }) })

/-- class_skills/caster/smn.py:297-309 `tri_disaster` -/
def tri_disaster (env : Env) : Py PyVal := do
  let name : PyVal := (.str "Tri-disaster")
  return (← newSkill {
    name := name
    is_GCD := (.bool true)
    damage_spec := (← newDamageSpec { potency := (← getPotency table env name) })
    timing_spec := (← newTimingSpec {
      base_cast_time := (.int 1500)
      animation_lock := (← attr_base_animation_lock env) })
    has_aoe := (.bool true) })

/-- class_skills/caster/smn.py:311-323 `fountain_of_fire` -/
def fountain_of_fire (env : Env) : Py PyVal := do
  let name : PyVal := (.str "Fountain of Fire")
  return (← newSkill {
    name := name
    is_GCD := (.bool true)
    damage_spec := (← newDamageSpec { potency := (← getPotency table env name) })
    timing_spec := (← newTimingSpec {
      base_cast_time := (.int 0)
      animation_lock := (← attr_base_animation_lock env)
      application_delay := (.int 1070) }) })

/-- class_skills/caster/smn.py:325-338 `brand_of_purgatory` -/
def brand_of_purgatory (env : Env) : Py PyVal := do
  let name : PyVal := (.str "Brand of Purgatory")
  return (← newSkill {
    name := name
    is_GCD := (.bool true)
    damage_spec := (← newDamageSpec { potency := (← getPotency table env name) })
    timing_spec := (← newTimingSpec {
      base_cast_time := (.int 0)
      animation_lock := (← attr_base_animation_lock env)
      application_delay := (.int 800) })
    has_aoe := (.bool true) })

/-- class_skills/caster/smn.py:340-363 `__get_revelation_follow_up` -/
def get_revelation_follow_up (env : Env) : Py PyVal := do
  let name : PyVal := (.str "Revelation (pet)")
  return (← newFollowUp {
    skill := (← newSkill {
      name := name
      is_GCD := (.bool false)
      status_effect_denylist := (.tuple [(.str "Dragon Sight")])
      damage_spec := (mkDict [
        ((.str SimConsts.DEFAULT_CONDITION), (← newDamageSpec {
          potency := (← getPotency table env name)
          damage_class := (.damageClass .pet)
          pet_job_mod_override := (.int 100)
          pet_scalar := (.float (88 / 100)) }))])
      timing_spec := (← attr_smn_instant_timing_spec env)
      has_aoe := (.bool true)
      aoe_dropoff := (.float (6 / 10)) })
    delay_after_parent_application := (.int 0)
    snapshot_buffs_with_parent := (.int 0)
    snapshot_debuffs_with_parent := (.int 0)
    primary_target_only := (.bool false) })

/-- class_skills/caster/smn.py:365-373 `enkindle_phoenix` -/
def enkindle_phoenix (env : Env) : Py PyVal := do
  let name : PyVal := (.str "Enkindle Phoenix")
  return (← newSkill {
    name := name
    is_GCD := (.bool false)
    timing_spec := (← attr_smn_instant_timing_spec env)
    follow_up_skills := (.tuple [(← get_revelation_follow_up env)]) })

/-- class_skills/caster/smn.py:375-383 `revelation` -/
def revelation (env : Env) : Py PyVal := do
  let name : PyVal := (.str "Revelation")
  return (← newSkill {
    name := name
    is_GCD := (.bool false)
    timing_spec := (← attr_smn_instant_timing_spec env)
    follow_up_skills := (.tuple [(← get_revelation_follow_up env)]) })

/-- class_skills/caster/smn.py:385-399 `ruby_catastrophe` -/
def ruby_catastrophe (env : Env) : Py PyVal := do
  let name : PyVal := (.str "Ruby Catastrophe")
  return (← newSkill {
    name := name
    is_GCD := (.bool true)
    damage_spec := (← newDamageSpec { potency := (← getPotency table env name) })
    timing_spec := (← newTimingSpec {
      base_cast_time := (.int 2800)
      gcd_base_recast_time := (.int 3000)
      animation_lock := (← attr_smn_caster_tax_ms env)
      application_delay := (.int 535) })
    has_aoe := (.bool true) })

/-- class_skills/caster/smn.py:401-415 `topaz_catastrophe` -/
def topaz_catastrophe (env : Env) : Py PyVal := do
  let name : PyVal := (.str "Topaz Catastrophe")
  return (← newSkill {
    name := name
    is_GCD := (.bool true)
    damage_spec := (← newDamageSpec { potency := (← getPotency table env name) })
    timing_spec := (← newTimingSpec {
      base_cast_time := (.int 0)
      gcd_base_recast_time := (.int 2500)
      animation_lock := (← attr_base_animation_lock env)
      application_delay := (.int 535) })
    has_aoe := (.bool true) })

/-- class_skills/caster/smn.py:417-434 `emerald_catastrophe` -/
def emerald_catastrophe (env : Env) : Py PyVal := do
  let name : PyVal := (.str "Emerald Catastrophe")
  return (← newSkill {
    name := name
    is_GCD := (.bool true)
    damage_spec := (← newDamageSpec { potency := (← getPotency table env name) })
    timing_spec := (← newTimingSpec {
      base_cast_time := (.int 0)
      gcd_base_recast_time := (.int 1500)
      animation_lock := (← attr_base_animation_lock env)
      application_delay := (.int 535)
      affected_by_speed_stat := (.bool false)
      affected_by_haste_buffs := (.bool false) })
    has_aoe := (.bool true) })

/-- class_skills/caster/smn.py:436-454 `crimson_cyclone` -/
def crimson_cyclone (env : Env) : Py PyVal := do
  let name : PyVal := (.str "Crimson Cyclone")
  return (← newSkill {
    name := name
    is_GCD := (.bool true)
    damage_spec := (mkDict [
      ((.str SimConsts.DEFAULT_CONDITION), (← newDamageSpec { potency := (← getPotency table env name) }))])
    timing_spec := (← newTimingSpec {
      base_cast_time := (.int 0)
      animation_lock := (← attr_base_animation_lock env)
      application_delay := (.int 800) })
    has_aoe := (.bool true)
    aoe_dropoff := (.float (65 / 100)) })

/-- class_skills/caster/smn.py:456-474 `crimson_strike` -/
def crimson_strike (env : Env) : Py PyVal := do
  let name : PyVal := (.str "Crimson Strike")
  return (← newSkill {
    name := name
    is_GCD := (.bool true)
    damage_spec := (mkDict [
      ((.str SimConsts.DEFAULT_CONDITION), (← newDamageSpec { potency := (← getPotency table env name) }))])
    timing_spec := (← newTimingSpec {
      base_cast_time := (.int 0)
      animation_lock := (← attr_base_animation_lock env)
      application_delay := (.int 760) })
    has_aoe := (.bool true)
    aoe_dropoff := (.float (65 / 100)) })

/-- class_skills/caster/smn.py:476-494 `mountain_buster` -/
def mountain_buster (env : Env) : Py PyVal := do
  let name : PyVal := (.str "Mountain Buster")
  return (← newSkill {
    name := name
    is_GCD := (.bool false)
    damage_spec := (mkDict [
      ((.str SimConsts.DEFAULT_CONDITION), (← newDamageSpec { potency := (← getPotency table env name) }))])
    timing_spec := (← newTimingSpec {
      base_cast_time := (.int 0)
      animation_lock := (← attr_base_animation_lock env)
      application_delay := (.int 760) })
    has_aoe := (.bool true)
    aoe_dropoff := (.float (7 / 10)) })

/-- class_skills/caster/smn.py:496-534 `slipstream` -/
def slipstream (env : Env) : Py PyVal := do
  let mut name : PyVal := .unbound
  name := (.str "Slipstream (dot)")
  let slipstream_follow_up : PyVal := (← newFollowUp {
    skill := (← newSkill {
      name := name
      is_GCD := (.bool false)
      damage_spec := (← newDamageSpec {
        potency := (← getPotency table env name)
        damage_class := (.damageClass .magicalDot) })
      has_aoe := (.bool true) })
    delay_after_parent_application := (.int 0)
    dot_duration := (← PyVal.mul (.int 15) (.int 1000))
    snapshot_buffs_with_parent := (.bool true)
    snapshot_debuffs_with_parent := (.bool false)
    primary_target_only := (.bool false) })
  name := (.str "Slipstream")
  return (← newSkill {
    name := name
    is_GCD := (.bool true)
    damage_spec := (mkDict [
      ((.str SimConsts.DEFAULT_CONDITION), (← newDamageSpec { potency := (← getPotency table env name) }))])
    timing_spec := (← newTimingSpec {
      base_cast_time := (.int 3000)
      gcd_base_recast_time := (.int 3500)
      animation_lock := (← attr_smn_caster_tax_ms env)
      application_delay := (.int 1020) })
    follow_up_skills := (.tuple [slipstream_follow_up])
    has_aoe := (.bool true)
    aoe_dropoff := (.float (65 / 100)) })

/-- class_skills/caster/smn.py:536-568 `summon_ifrit_ii` -/
def summon_ifrit_ii (env : Env) : Py PyVal := do
  let mut name : PyVal := .unbound
  name := (.str "Inferno (pet)")
  let inferno_follow_up : PyVal := (← newFollowUp {
    skill := (← newSkill {
      name := name
      is_GCD := (.bool true)
      status_effect_denylist := (.tuple [(.str "Dragon Sight")])
      damage_spec := (mkDict [
        ((.str SimConsts.DEFAULT_CONDITION), (← newDamageSpec {
          potency := (← getPotency table env name)
          damage_class := (.damageClass .pet)
          pet_job_mod_override := (.int 100)
          pet_scalar := (.float (88 / 100)) }))])
      has_aoe := (.bool true)
      aoe_dropoff := (.float (6 / 10)) })
    snapshot_buffs_with_parent := (.bool false)
    snapshot_debuffs_with_parent := (.bool false)
    delay_after_parent_application := (.int 2100)
    primary_target_only := (.bool false) })
  name := (.str "Summon Ifrit II")
  return (← newSkill {
    name := name
    is_GCD := (.bool true)
    timing_spec := (← attr_smn_instant_timing_spec env)
    follow_up_skills := (.tuple [inferno_follow_up]) })

/-- class_skills/caster/smn.py:570-602 `summon_titan_ii` -/
def summon_titan_ii (env : Env) : Py PyVal := do
  let mut name : PyVal := .unbound
  name := (.str "Earthen Fury (pet)")
  let earthen_fury_follow_up : PyVal := (← newFollowUp {
    skill := (← newSkill {
      name := name
      is_GCD := (.bool true)
      status_effect_denylist := (.tuple [(.str "Dragon Sight")])
      damage_spec := (mkDict [
        ((.str SimConsts.DEFAULT_CONDITION), (← newDamageSpec {
          potency := (← getPotency table env name)
          damage_class := (.damageClass .pet)
          pet_job_mod_override := (.int 100)
          pet_scalar := (.float (88 / 100)) }))])
      has_aoe := (.bool true)
      aoe_dropoff := (.float (6 / 10)) })
    snapshot_buffs_with_parent := (.bool false)
    snapshot_debuffs_with_parent := (.bool false)
    delay_after_parent_application := (.int 2100)
    primary_target_only := (.bool false) })
  name := (.str "Summon Titan II")
  return (← newSkill {
    name := name
    is_GCD := (.bool true)
    timing_spec := (← attr_smn_instant_timing_spec env)
    follow_up_skills := (.tuple [earthen_fury_follow_up]) })

/-- class_skills/caster/smn.py:604-636 `summon_garuda_ii` -/
def summon_garuda_ii (env : Env) : Py PyVal := do
  let mut name : PyVal := .unbound
  name := (.str "Aerial Blast (pet)")
  let aerial_blast_follow_up : PyVal := (← newFollowUp {
    skill := (← newSkill {
      name := name
      is_GCD := (.bool true)
      status_effect_denylist := (.tuple [(.str "Dragon Sight")])
      damage_spec := (mkDict [
        ((.str SimConsts.DEFAULT_CONDITION), (← newDamageSpec {
          potency := (← getPotency table env name)
          damage_class := (.damageClass .pet)
          pet_job_mod_override := (.int 100)
          pet_scalar := (.float (88 / 100)) }))])
      has_aoe := (.bool true)
      aoe_dropoff := (.float (6 / 10)) })
    snapshot_buffs_with_parent := (.bool false)
    snapshot_debuffs_with_parent := (.bool false)
    delay_after_parent_application := (.int 2100)
    primary_target_only := (.bool false) })
  name := (.str "Summon Garuda II")
  return (← newSkill {
    name := name
    is_GCD := (.bool true)
    timing_spec := (← attr_smn_instant_timing_spec env)
    follow_up_skills := (.tuple [aerial_blast_follow_up]) })

/-- class_skills/caster/smn.py:638-652 `necrotize` -/
def necrotize (env : Env) : Py PyVal := do
  if decide (env.level < 92) then
    return .none
  let name : PyVal := (.str "Necrotize")
  return (← newSkill {
    name := name
    is_GCD := (.bool false)
    damage_spec := (← newDamageSpec { potency := (← getPotency table env name) })
    timing_spec := (← newTimingSpec {
      base_cast_time := (.int 0)
      animation_lock := (← attr_base_animation_lock env)
      application_delay := (.int 710) }) })

/-- class_skills/caster/smn.py:654-669 `searing_flash` -/
def searing_flash (env : Env) : Py PyVal := do
  if decide (env.level < 96) then
    return .none
  let name : PyVal := (.str "Searing Flash")
  return (← newSkill {
    name := name
    is_GCD := (.bool false)
    damage_spec := (← newDamageSpec { potency := (← getPotency table env name) })
    timing_spec := (← newTimingSpec {
      base_cast_time := (.int 0)
      animation_lock := (← attr_base_animation_lock env)
      application_delay := (.int 800) })
    has_aoe := (.bool true) })

/-- class_skills/caster/smn.py:671-683 `__get_scarlet_flame_skill_for_follow_up` -/
def get_scarlet_flame_skill_for_follow_up (env : Env) : Py PyVal := do
  let name : PyVal := (.str "Scarlet Flame (pet)")
  return (← newSkill {
    name := name
    is_GCD := (.bool false)
    status_effect_denylist := (.tuple [(.str "Dragon Sight")])
    damage_spec := (← newDamageSpec {
      potency := (← getPotency table env name)
      damage_class := (.damageClass .pet)
      pet_job_mod_override := (.int 100)
      pet_scalar := (.float (88 / 100)) }) })

/-- class_skills/caster/smn.py:685-701 `scarlet_flame` -/
def scarlet_flame (env : Env) : Py PyVal := do
  let name : PyVal := (.str "Scarlet Flame")
  return (← newSkill {
    name := name
    is_GCD := (.bool false)
    status_effect_denylist := (.tuple [(.str "Dragon Sight")])
    timing_spec := (← autoTimingSpec)
    follow_up_skills := (.tuple [
      (← newFollowUp {
        skill := (← get_scarlet_flame_skill_for_follow_up env)
        delay_after_parent_application := (.int 0)
        snapshot_buffs_with_parent := (.bool false)
        snapshot_debuffs_with_parent := (.bool false) })]) })

/-- class_skills/caster/smn.py:703-742 `summon_phoenix` -/
def summon_phoenix (env : Env) : Py PyVal := do
  let name : PyVal := (.str "Summon Phoenix")
  let scarlet_flame_skill_for_follow_up : PyVal := (← get_scarlet_flame_skill_for_follow_up env)
  return (← newSkill {
    name := name
    is_GCD := (.bool true)
    timing_spec := (← attr_smn_instant_timing_spec env)
    follow_up_skills := (mkDict [
      ((.str SimConsts.DEFAULT_CONDITION), (.tuple [
        (← newFollowUp {
          skill := scarlet_flame_skill_for_follow_up
          delay_after_parent_application := (.int 3650)
          snapshot_buffs_with_parent := (.bool false)
          snapshot_debuffs_with_parent := (.bool false) }),
        (← newFollowUp {
          skill := scarlet_flame_skill_for_follow_up
          delay_after_parent_application := (.int 6250)
          snapshot_buffs_with_parent := (.bool false)
          snapshot_debuffs_with_parent := (.bool false) }),
        (← newFollowUp {
          skill := scarlet_flame_skill_for_follow_up
          delay_after_parent_application := (.int 10850)
          snapshot_buffs_with_parent := (.bool false)
          snapshot_debuffs_with_parent := (.bool false) }),
        (← newFollowUp {
          skill := scarlet_flame_skill_for_follow_up
          delay_after_parent_application := (.int 12500)
          snapshot_buffs_with_parent := (.bool false)
          snapshot_debuffs_with_parent := (.bool false) })])),
      ((.str "Manual"), (.tuple []))]) })

/-- class_skills/caster/smn.py:744-756 `__get_wyrmwave_skill_for_follow_up` -/
def get_wyrmwave_skill_for_follow_up (env : Env) : Py PyVal := do
  let name : PyVal := (.str "Wyrmwave (pet)")
  return (← newSkill {
    name := name
    is_GCD := (.bool false)
    status_effect_denylist := (.tuple [(.str "Dragon Sight")])
    damage_spec := (← newDamageSpec {
      potency := (← getPotency table env name)
      damage_class := (.damageClass .pet)
      pet_job_mod_override := (.int 100)
      pet_scalar := (.float (88 / 100)) }) })

/-- class_skills/caster/smn.py:758-775 `wyrmwave` -/
def wyrmwave (env : Env) : Py PyVal := do
  let name : PyVal := (.str "Wyrmwave")
  return (.tuple [
    (← newSkill {
      name := name
      is_GCD := (.bool false)
      timing_spec := (← autoTimingSpec)
      follow_up_skills := (.tuple [
        (← newFollowUp {
          skill := (← get_wyrmwave_skill_for_follow_up env)
          delay_after_parent_application := (.int 0)
          snapshot_buffs_with_parent := (.bool false)
          snapshot_debuffs_with_parent := (.bool false) })]) })])

/-- class_skills/caster/smn.py:777-814 `summon_bahamut` -/
def summon_bahamut (env : Env) : Py PyVal := do
  let name : PyVal := (.str "Summon Bahamut")
  let wyrmwave_skill_for_follow_up : PyVal := (← get_wyrmwave_skill_for_follow_up env)
  return (← newSkill {
    name := name
    is_GCD := (.bool true)
    timing_spec := (← attr_smn_instant_timing_spec env)
    follow_up_skills := (mkDict [
      ((.str SimConsts.DEFAULT_CONDITION), (.tuple [
        (← newFollowUp {
          skill := wyrmwave_skill_for_follow_up
          delay_after_parent_application := (.int 3200)
          snapshot_buffs_with_parent := (.bool false)
          snapshot_debuffs_with_parent := (.bool false) }),
        (← newFollowUp {
          skill := wyrmwave_skill_for_follow_up
          delay_after_parent_application := (.int 6350)
          snapshot_buffs_with_parent := (.bool false)
          snapshot_debuffs_with_parent := (.bool false) }),
        (← newFollowUp {
          skill := wyrmwave_skill_for_follow_up
          delay_after_parent_application := (.int 10950)
          snapshot_buffs_with_parent := (.bool false)
          snapshot_debuffs_with_parent := (.bool false) }),
        (← newFollowUp {
          skill := wyrmwave_skill_for_follow_up
          delay_after_parent_application := (.int 12500)
          snapshot_buffs_with_parent := (.bool false)
          snapshot_debuffs_with_parent := (.bool false) })])),
      ((.str "Manual"), (.tuple []))]) })

/-- class_skills/caster/smn.py:816-830 `luxwave` -/
def luxwave (env : Env) (display_name : PyVal) : Py PyVal := do
  if decide (env.level < 100) then
    return .none
  return (← newSkill {
    name := display_name
    is_GCD := (.bool false)
    damage_spec := (← newDamageSpec {
      potency := (← getPotency table env (.str "Luxwave"))
      damage_class := (.damageClass .pet)
      pet_job_mod_override := (.int 100)
      pet_scalar := (.float (88 / 100)) })
    timing_spec := (← autoTimingSpec) })

/-- class_skills/caster/smn.py:832-872 `summon_solar_bahamut` -/
def summon_solar_bahamut (env : Env) : Py PyVal := do
  if decide (env.level < 100) then
    return .none
  let name : PyVal := (.str "Summon Solar Bahamut")
  let luxwave_skill_for_follow_up : PyVal := (← luxwave env (.str "Luxwave (pet)"))
  return (← newSkill {
    name := name
    is_GCD := (.bool true)
    timing_spec := (← attr_smn_instant_timing_spec env)
    follow_up_skills := (mkDict [
      ((.str SimConsts.DEFAULT_CONDITION), (.tuple [
        (← newFollowUp {
          skill := luxwave_skill_for_follow_up
          delay_after_parent_application := (.int 3200)
          snapshot_buffs_with_parent := (.bool false)
          snapshot_debuffs_with_parent := (.bool false) }),
        (← newFollowUp {
          skill := luxwave_skill_for_follow_up
          delay_after_parent_application := (.int 6350)
          snapshot_buffs_with_parent := (.bool false)
          snapshot_debuffs_with_parent := (.bool false) }),
        (← newFollowUp {
          skill := luxwave_skill_for_follow_up
          delay_after_parent_application := (.int 10950)
          snapshot_buffs_with_parent := (.bool false)
          snapshot_debuffs_with_parent := (.bool false) }),
        (← newFollowUp {
          skill := luxwave_skill_for_follow_up
          delay_after_parent_application := (.int 12500)
          snapshot_buffs_with_parent := (.bool false)
          snapshot_debuffs_with_parent := (.bool false) })])),
      ((.str "Manual"), (.tuple []))]) })

/-- class_skills/caster/smn.py:874-888 `umbral_impulse` -/
def umbral_impulse (env : Env) : Py PyVal := do
  if decide (env.level < 100) then
    return .none
  let name : PyVal := (.str "Umbral Impulse")
  return (← newSkill {
    name := name
    is_GCD := (.bool true)
    damage_spec := (← newDamageSpec { potency := (← getPotency table env name) })
    timing_spec := (← newTimingSpec {
      base_cast_time := (.int 0)
      animation_lock := (← attr_base_animation_lock env)
      application_delay := (.int 800) }) })

/-- class_skills/caster/smn.py:890-905 `umbral_flare` -/
def umbral_flare (env : Env) : Py PyVal := do
  if decide (env.level < 100) then
    return .none
  let name : PyVal := (.str "Umbral Flare")
  return (← newSkill {
    name := name
    is_GCD := (.bool true)
    damage_spec := (← newDamageSpec { potency := (← getPotency table env name) })
    timing_spec := (← newTimingSpec {
      base_cast_time := (.int 0)
      animation_lock := (← attr_base_animation_lock env)
      application_delay := (.int 530) })
    has_aoe := (.bool true) })

/-- class_skills/caster/smn.py:907-927 `sunflare` -/
def sunflare (env : Env) : Py PyVal := do
  if decide (env.level < 100) then
    return .none
  let name : PyVal := (.str "Sunflare")
  return (← newSkill {
    name := name
    is_GCD := (.bool false)
    damage_spec := (mkDict [
      ((.str SimConsts.DEFAULT_CONDITION), (← newDamageSpec { potency := (← getPotency table env name) }))])
    timing_spec := (← newTimingSpec {
      base_cast_time := (.int 0)
      animation_lock := (← attr_base_animation_lock env)
      application_delay := (.int 800) })
    has_aoe := (.bool true)
    aoe_dropoff := (.float (6 / 10)) })

/-- class_skills/caster/smn.py:929-953 `__get_exodus_follow_up` -/
def get_exodus_follow_up (env : Env) : Py PyVal := do
  if decide (env.level < 100) then
    return .none
  let name : PyVal := (.str "Exodus (pet)")
  return (← newFollowUp {
    skill := (← newSkill {
      name := name
      is_GCD := (.bool false)
      damage_spec := (mkDict [
        ((.str SimConsts.DEFAULT_CONDITION), (← newDamageSpec {
          potency := (← getPotency table env name)
          damage_class := (.damageClass .pet)
          pet_job_mod_override := (.int 100)
          pet_scalar := (.float (88 / 100)) }))])
      timing_spec := (← attr_smn_instant_timing_spec env)
      has_aoe := (.bool true)
      aoe_dropoff := (.float (6 / 10)) })
    delay_after_parent_application := (.int 0)
    snapshot_buffs_with_parent := (.bool false)
    snapshot_debuffs_with_parent := (.bool false)
    primary_target_only := (.bool false) })

/-- class_skills/caster/smn.py:955-965 `exodus` -/
def exodus (env : Env) : Py PyVal := do
  if decide (env.level < 100) then
    return .none
  let display_name : PyVal := (.str "Exodus")
  return (← newSkill {
    name := display_name
    is_GCD := (.bool false)
    timing_spec := (← attr_smn_instant_timing_spec env)
    follow_up_skills := (.tuple [(← get_exodus_follow_up env)]) })

/-- class_skills/caster/smn.py:967-977 `enkindle_solar_bahamut` -/
def enkindle_solar_bahamut (env : Env) : Py PyVal := do
  if decide (env.level < 100) then
    return .none
  let name : PyVal := (.str "Enkindle Solar Bahamut")
  return (← newSkill {
    name := name
    is_GCD := (.bool false)
    timing_spec := (← attr_smn_instant_timing_spec env)
    follow_up_skills := (.tuple [(← get_exodus_follow_up env)]) })

/-- class_skills/caster/smn.py:983-996 `aethercharge` -/
def aethercharge (env : Env) : Py PyVal := do
  let name : PyVal := (.str "Aethercharge")
  return (← newSkill {
    name := name
    is_GCD := (.bool true)
    timing_spec := (← attr_smn_instant_timing_spec env)
    buff_spec := (← newStatusEffectSpec {
      duration := (← PyVal.mul (.int 15) (.int 1000))
      num_uses := (.int 1)
      add_to_skill_modifier_condition := (.bool true)
      skill_allowlist := (.tuple [(.str "Ruin III")]) }) })

/-- class_skills/caster/smn.py:998-1017 `swiftcast` -/
def swiftcast (env : Env) : Py PyVal := do
  let name : PyVal := (.str "Swiftcast")
  return (← newSkill {
    name := name
    is_GCD := (.bool false)
    timing_spec := (← attr_smn_instant_timing_spec env)
    buff_spec := (← newStatusEffectSpec {
      flat_cast_time_reduction := (.inf)
      duration := (← PyVal.mul (.int 10) (.int 1000))
      num_uses := (.int 1)
      skill_allowlist := (.tuple [
        (.str "Ruin III"), (.str "Ruby Rite"), (.str "Tri-disaster"), (.str "Ruby Catastrophe"),
        (.str "Slipstream")]) }) })

/-- class_skills/caster/smn.py:1019-1029 `summon_carbuncle` -/
def summon_carbuncle (env : Env) : Py PyVal := do
  let name : PyVal := (.str "Summon Carbuncle")
  return (← newSkill {
    name := name
    is_GCD := (.bool true)
    timing_spec := (← newTimingSpec {
      base_cast_time := (.int 1500)
      animation_lock := (← attr_smn_caster_tax_ms env) }) })

/-- class_skills/caster/smn.py:1031-1034 `summon_ifrit` -/
def summon_ifrit (env : Env) : Py PyVal := do
  let name : PyVal := (.str "Summon Ifrit")
  return (← newSkill {
    name := name
    is_GCD := (.bool true)
    timing_spec := (← attr_smn_instant_timing_spec env) })

/-- class_skills/caster/smn.py:1036-1039 `summon_titan` -/
def summon_titan (env : Env) : Py PyVal := do
  let name : PyVal := (.str "Summon Titan")
  return (← newSkill {
    name := name
    is_GCD := (.bool true)
    timing_spec := (← attr_smn_instant_timing_spec env) })

/-- class_skills/caster/smn.py:1041-1044 `summon_garuda` -/
def summon_garuda (env : Env) : Py PyVal := do
  let name : PyVal := (.str "Summon Garuda")
  return (← newSkill {
    name := name
    is_GCD := (.bool true)
    timing_spec := (← attr_smn_instant_timing_spec env) })

/-- class_skills/caster/smn.py:1046-1049 `astral_flow` -/
def astral_flow (env : Env) : Py PyVal := do
  let name : PyVal := (.str "Astral Flow")
  return (← newSkill {
    name := name
    is_GCD := (.bool true)
    timing_spec := (← attr_smn_instant_timing_spec env) })

/-- class_skills/caster/smn.py:17-1049 `SmnSkills`; the methods in the order of `dir`. -/
def job (env : Env) : JobClass where
  jobClass := "SMN"
  init := do
    let _ ← attr_smn_caster_tax_ms env
    let _ ← attr_base_animation_lock env
    let _ ← attr_smn_instant_timing_spec env
  skillMethods := [
    aethercharge env,
    akh_morn env,
    astral_flare env,
    astral_flow env,
    astral_impulse env,
    auto env,
    brand_of_purgatory env,
    crimson_cyclone env,
    crimson_strike env,
    deathflare env,
    emerald_catastrophe env,
    emerald_rite env,
    energy_drain env,
    energy_siphon env,
    enkindle_bahamut env,
    enkindle_phoenix env,
    enkindle_solar_bahamut env,
    exodus env,
    fester env,
    fountain_of_fire env,
    luxwave env (.str "Luxwave"),
    mountain_buster env,
    necrotize env,
    painflare env,
    revelation env,
    ruby_catastrophe env,
    ruby_rite env,
    ruin_iii env,
    ruin_iv env,
    scarlet_flame env,
    searing_flash env,
    searing_light env,
    slipstream env,
    summon_bahamut env,
    summon_carbuncle env,
    summon_garuda env,
    summon_garuda_ii env,
    summon_ifrit env,
    summon_ifrit_ii env,
    summon_phoenix env,
    summon_solar_bahamut env,
    summon_titan env,
    summon_titan_ii env,
    sunflare env,
    swiftcast env,
    topaz_catastrophe env,
    topaz_rite env,
    tri_disaster env,
    umbral_flare env,
    umbral_impulse env,
    wyrmwave env]

end Ama.GameData.Smn
