import Verif.Model.GameData.Values

/-!
# BRD

Model of `simulator/game_data/class_skills/ranged/brd.py` and `simulator/game_data/class_skills/ranged/brd_data.py`, written by
`tools/translate.py`: one function per method.  Paths in the comments are relative to
`simulator/game_data`.
-/

namespace Ama.GameData.Brd

open PyVal

/-- class_skills/ranged/brd_data.py:7-109 `ALL_DATA` -/
def table : Table := [
  ("Stormbite (dot)", [
    (90, [("potency", [(.p655, .ok (.int 25))])]),
    (100, [("potency", [(.p70, .ok (.int 25))])])]),
  ("Caustic Bite (dot)", [
    (90, [("potency", [(.p655, .ok (.int 20))])]),
    (100, [("potency", [(.p70, .ok (.int 20))])])]),
  ("Bloodletter", [
    (90, [("potency", [(.p655, .ok (.int 110)), (.p70, .ok (.int 130))])]),
    (100, [("potency", [(.p70, .ok (.int 130))])])]),
  ("Mage's Ballad", [(90, [("potency", [(.p655, .ok (.int 100))])])]),
  ("Army's Paeon", [(90, [("potency", [(.p655, .ok (.int 100))])])]),
  ("Rain of Death", [
    (90, [("potency", [(.p655, .ok (.int 100))])]),
    (100, [("potency", [(.p70, .ok (.int 100))])])]),
  ("Battle Voice", [
    (90, [
      ("duration", [
        (.p655, do return (← PyVal.mul (.int 15) (.int 1000))),
        (.p70, do return (← PyVal.mul (.int 20) (.int 1000)))])]),
    (100, [("duration", [(.p70, do return (← PyVal.mul (.int 20) (.int 1000)))])])]),
  ("The Wanderer's Minuet", [(90, [("potency", [(.p655, .ok (.int 100))])])]),
  ("Pitch Perfect", [
    (90, [
      ("1 Repertoire", [(.p655, .ok (.int 100))]),
      ("2 Repertoire", [(.p655, .ok (.int 220))]),
      ("3 Repertoire", [(.p655, .ok (.int 360))])]),
    (100, [
      ("1 Repertoire", [(.p70, .ok (.int 100))]),
      ("2 Repertoire", [(.p70, .ok (.int 220))]),
      ("3 Repertoire", [(.p70, .ok (.int 360))])])]),
  ("Empyreal Arrow", [
    (90, [("potency", [(.p655, .ok (.int 240))])]),
    (100, [("potency", [(.p70, .ok (.int 260))])])]),
  ("Iron Jaws", [
    (90, [("potency", [(.p655, .ok (.int 100))])]),
    (100, [("potency", [(.p70, .ok (.int 100))])])]),
  ("Sidewinder", [
    (90, [("potency", [(.p655, .ok (.int 320))])]),
    (100, [("potency", [(.p70, .ok (.int 400))])])]),
  ("Caustic Bite", [
    (90, [("potency", [(.p655, .ok (.int 150))])]),
    (100, [("potency", [(.p70, .ok (.int 150))])])]),
  ("Stormbite", [
    (90, [("potency", [(.p655, .ok (.int 100))])]),
    (100, [("potency", [(.p70, .ok (.int 100))])])]),
  ("Refulgent Arrow", [
    (90, [("potency", [(.p655, .ok (.int 280)), (.p70, .ok (.int 260))])]),
    (100, [("potency", [(.p70, .ok (.int 280))])])]),
  ("Shadowbite", [
    (90, [
      ("potency", [(.p655, .ok (.int 170))]),
      ("potency_barrage", [(.p655, .ok (.int 270))])]),
    (100, [
      ("potency", [(.p70, .ok (.int 170))]),
      ("potency_barrage", [(.p70, .ok (.int 270))])])]),
  ("Burst Shot", [
    (90, [("potency", [(.p655, .ok (.int 220)), (.p70, .ok (.int 200))])]),
    (100, [("potency", [(.p70, .ok (.int 220))])])]),
  ("Apex Arrow", [
    (90, [
      ("20 Soul Voice", [(.p655, .ok (.int 100))]),
      ("25 Soul Voice", [(.p655, .ok (.int 125))]),
      ("30 Soul Voice", [(.p655, .ok (.int 150))]),
      ("35 Soul Voice", [(.p655, .ok (.int 175))]),
      ("40 Soul Voice", [(.p655, .ok (.int 200))]),
      ("45 Soul Voice", [(.p655, .ok (.int 225))]),
      ("50 Soul Voice", [(.p655, .ok (.int 250))]),
      ("55 Soul Voice", [(.p655, .ok (.int 275))]),
      ("60 Soul Voice", [(.p655, .ok (.int 300))]),
      ("65 Soul Voice", [(.p655, .ok (.int 325))]),
      ("70 Soul Voice", [(.p655, .ok (.int 350))]),
      ("75 Soul Voice", [(.p655, .ok (.int 375))]),
      ("80 Soul Voice", [(.p655, .ok (.int 400))]),
      ("85 Soul Voice", [(.p655, .ok (.int 425))]),
      ("90 Soul Voice", [(.p655, .ok (.int 450))]),
      ("95 Soul Voice", [(.p655, .ok (.int 475))]),
      ("100 Soul Voice", [(.p655, .ok (.int 500))])]),
    (100, [
      ("20 Soul Voice", [(.p70, .ok (.int 120))]),
      ("25 Soul Voice", [(.p70, .ok (.int 150))]),
      ("30 Soul Voice", [(.p70, .ok (.int 180))]),
      ("35 Soul Voice", [(.p70, .ok (.int 210))]),
      ("40 Soul Voice", [(.p70, .ok (.int 240))]),
      ("45 Soul Voice", [(.p70, .ok (.int 270))]),
      ("50 Soul Voice", [(.p70, .ok (.int 300))]),
      ("55 Soul Voice", [(.p70, .ok (.int 330))]),
      ("60 Soul Voice", [(.p70, .ok (.int 360))]),
      ("65 Soul Voice", [(.p70, .ok (.int 390))]),
      ("70 Soul Voice", [(.p70, .ok (.int 420))]),
      ("75 Soul Voice", [(.p70, .ok (.int 450))]),
      ("80 Soul Voice", [(.p70, .ok (.int 480))]),
      ("85 Soul Voice", [(.p70, .ok (.int 510))]),
      ("90 Soul Voice", [(.p70, .ok (.int 540))]),
      ("95 Soul Voice", [(.p70, .ok (.int 570))]),
      ("100 Soul Voice", [(.p70, .ok (.int 600))])])]),
  ("Ladonsbite", [
    (90, [("potency", [(.p655, .ok (.int 130))])]),
    (100, [("potency", [(.p70, .ok (.int 130))])])]),
  ("Blast Arrow", [
    (90, [("potency", [(.p655, .ok (.int 600))])]),
    (100, [("potency", [(.p70, .ok (.int 600))])])]),
  ("Radiant Finale", [
    (90, [
      ("duration", [
        (.p655, do return (← PyVal.mul (.int 15) (.int 1000))),
        (.p70, do return (← PyVal.mul (.int 20) (.int 1000)))])]),
    (100, [("duration", [(.p70, do return (← PyVal.mul (.int 20) (.int 1000)))])])]),
  ("Heartbreak Shot", [(100, [("potency", [(.p70, .ok (.int 180))])])]),
  ("Resonant Arrow", [(100, [("potency", [(.p70, .ok (.int 600))])])]),
  ("Radiant Encore", [
    (100, [
      ("3 Encore", [(.p70, .ok (.int 900))]),
      ("2 Encore", [(.p70, .ok (.int 600))]),
      ("1 Encore", [(.p70, .ok (.int 500))])])])]

/-- class_skills/ranged/brd.py:24-34 `mages_coda` -/
def mages_coda (_env : Env) : Py PyVal := do
  let name : PyVal := (.str "Mage's Coda")
  let job_resource_settings : PyVal := (← newJobResourceSettings {
    max_value := (.int 1)
    skill_allowlist := (.tuple [(.str "Mage's Ballad"), (.str "Radiant Finale")]) })
  return (.tuple [name, job_resource_settings])

/-- class_skills/ranged/brd.py:36-46 `armys_coda` -/
def armys_coda (_env : Env) : Py PyVal := do
  let name : PyVal := (.str "Army's Coda")
  let job_resource_settings : PyVal := (← newJobResourceSettings {
    max_value := (.int 1)
    skill_allowlist := (.tuple [(.str "Army's Paeon"), (.str "Radiant Finale")]) })
  return (.tuple [name, job_resource_settings])

/-- class_skills/ranged/brd.py:48-58 `wanderers_coda` -/
def wanderers_coda (_env : Env) : Py PyVal := do
  let name : PyVal := (.str "Wanderer's Coda")
  let job_resource_settings : PyVal := (← newJobResourceSettings {
    max_value := (.int 1)
    skill_allowlist := (.tuple [(.str "The Wanderer's Minuet"), (.str "Radiant Finale")]) })
  return (.tuple [name, job_resource_settings])

/-- class_skills/ranged/brd.py:60-70 `soul_voice` -/
def soul_voice (_env : Env) : Py PyVal := do
  let name : PyVal := (.str "Soul Voice")
  let job_resource_settings : PyVal := (← newJobResourceSettings {
    max_value := (.int 100)
    skill_allowlist := (.tuple [(.str "Apex Arrow"), (.str "Add Soul Voice")]) })
  return (.tuple [name, job_resource_settings])

/-- class_skills/ranged/brd.py:72-82 `repertoire` -/
def repertoire (_env : Env) : Py PyVal := do
  let name : PyVal := (.str "Repertoire")
  let job_resource_settings : PyVal := (← newJobResourceSettings {
    max_value := (.int 3)
    skill_allowlist := (.tuple [(.str "Pitch Perfect"), (.str "Add Repertoire")]) })
  return (.tuple [name, job_resource_settings])

/-- class_skills/ranged/brd.py:84-94 `auto` -/
def auto (_env : Env) : Py PyVal := do
  let name : PyVal := (.str "Shot")
  return (← newSkill {
    name := name
    is_GCD := (.bool false)
    timing_spec := (← shotTimingSpec)
    damage_spec := (← newDamageSpec {
      potency := (.int 80)
      damage_class := (.damageClass .auto)
      trait_damage_mult_override := (.int 1) }) })

/-- class_skills/ranged/brd.py:96-111 `__get_stormbite_follow_up` -/
def get_stormbite_follow_up (env : Env) : Py PyVal := do
  let name : PyVal := (.str "Stormbite (dot)")
  return (← newFollowUp {
    skill := (← newSkill {
      name := name
      is_GCD := (.bool false)
      damage_spec := (← newDamageSpec {
        potency := (← getPotency table env name)
        damage_class := (.damageClass .physicalDot) }) })
    delay_after_parent_application := (.int 0)
    dot_duration := (← PyVal.mul (.int 45) (.int 1000))
    snapshot_buffs_with_parent := (.bool true)
    snapshot_debuffs_with_parent := (.bool true) })

/-- class_skills/ranged/brd.py:113-128 `__get_caustic_bite_follow_up` -/
def get_caustic_bite_follow_up (env : Env) : Py PyVal := do
  let name : PyVal := (.str "Caustic Bite (dot)")
  return (← newFollowUp {
    skill := (← newSkill {
      name := name
      is_GCD := (.bool false)
      damage_spec := (← newDamageSpec {
        potency := (← getPotency table env name)
        damage_class := (.damageClass .physicalDot) }) })
    delay_after_parent_application := (.int 0)
    dot_duration := (← PyVal.mul (.int 45) (.int 1000))
    snapshot_buffs_with_parent := (.bool true)
    snapshot_debuffs_with_parent := (.bool true) })

/-- class_skills/ranged/brd.py:130-275 `armys_paeon` -/
def armys_paeon (env : Env) : Py PyVal := do
  let name : PyVal := (.str "Army's Paeon")
  let army_paeon_rep1 : PyVal := (← newFollowUp {
    skill := (← newSkill {
      name := name
      is_GCD := (.bool false)
      buff_spec := (← newStatusEffectSpec {
        haste_time_reduction := (.float (4 / 100))
        auto_attack_delay_reduction := (.float (4 / 100))
        duration := (← PyVal.mul (.int 45) (.int 1000)) }) })
    delay_after_parent_application := (.int 0) })
  let army_paeon_rep2 : PyVal := (← newFollowUp {
    skill := (← newSkill {
      name := name
      is_GCD := (.bool false)
      buff_spec := (← newStatusEffectSpec {
        haste_time_reduction := (.float (8 / 100))
        auto_attack_delay_reduction := (.float (8 / 100))
        duration := (← PyVal.mul (.int 45) (.int 1000)) }) })
    delay_after_parent_application := (.int 0) })
  let army_paeon_rep3 : PyVal := (← newFollowUp {
    skill := (← newSkill {
      name := name
      is_GCD := (.bool false)
      buff_spec := (← newStatusEffectSpec {
        haste_time_reduction := (.float (12 / 100))
        auto_attack_delay_reduction := (.float (12 / 100))
        duration := (← PyVal.mul (.int 45) (.int 1000)) }) })
    delay_after_parent_application := (.int 0) })
  let army_paeon_rep4 : PyVal := (← newFollowUp {
    skill := (← newSkill {
      name := name
      is_GCD := (.bool false)
      buff_spec := (← newStatusEffectSpec {
        haste_time_reduction := (.float (16 / 100))
        auto_attack_delay_reduction := (.float (16 / 100))
        duration := (← PyVal.mul (.int 45) (.int 1000)) }) })
    delay_after_parent_application := (.int 0) })
  return (← newSkill {
    name := name
    is_GCD := (.bool false)
    damage_spec := (← ifExp (env.ge .p70)
      (.ok .none)
      (do return (mkDict [
          ((.str SimConsts.DEFAULT_CONDITION), (← newDamageSpec {
            potency := (← getPotency table env name)
            trait_damage_mult_override := (.float (10 / 10)) })),
          ((.str "Buff Only"), .none),
          ((.str "1 Repertoire"), .none),
          ((.str "2 Repertoire"), .none),
          ((.str "3 Repertoire"), .none),
          ((.str "4 Repertoire"), .none)])))
    buff_spec := (mkDict [
      ((.str SimConsts.DEFAULT_CONDITION), (← newStatusEffectSpec {
        dh_rate_add := (.float (3 / 100))
        duration := (← PyVal.mul (.int 45) (.int 1000))
        is_party_effect := (.bool true)
        extends_existing_duration := (.bool false)
        expires_status_effects := (.tuple [(.str "The Wanderer's Minuet"), (.str "Mage's Ballad")]) })),
      ((.str "Buff Only"), (← newStatusEffectSpec {
        dh_rate_add := (.float (3 / 100))
        duration := (← PyVal.mul (.int 45) (.int 1000))
        is_party_effect := (.bool true)
        extends_existing_duration := (.bool true)
        expires_status_effects := (.tuple [(.str "The Wanderer's Minuet"), (.str "Mage's Ballad")]) })),
      ((.str "From Log, Buff Only"), (← newStatusEffectSpec {
        dh_rate_add := (.float (3 / 100))
        duration := (← PyVal.mul (.int 5) (.int 1000))
        max_duration := (← PyVal.mul (.int 5) (.int 1000))
        is_party_effect := (.bool true)
        extends_existing_duration := (.bool true)
        expires_status_effects := (.tuple [(.str "The Wanderer's Minuet"), (.str "Mage's Ballad")]) })),
      ((.str "From Log"), (← newStatusEffectSpec {
        dh_rate_add := (.float (3 / 100))
        duration := (← PyVal.mul (.int 5) (.int 1000))
        max_duration := (← PyVal.mul (.int 5) (.int 1000))
        is_party_effect := (.bool true)
        extends_existing_duration := (.bool true)
        expires_status_effects := (.tuple [(.str "The Wanderer's Minuet"), (.str "Mage's Ballad")]) })),
      ((.str "1 Repertoire"), .none),
      ((.str "2 Repertoire"), .none),
      ((.str "3 Repertoire"), .none),
      ((.str "4 Repertoire"), .none)])
    timing_spec := (mkDict [
      ((.str SimConsts.DEFAULT_CONDITION), (← instantTimingSpec)),
      ((.str "Buff Only"), (← newTimingSpec { base_cast_time := (.int 0), animation_lock := (.int 0) })),
      ((.str "1 Repertoire"), (← newTimingSpec { base_cast_time := (.int 0), animation_lock := (.int 0) })),
      ((.str "2 Repertoire"), (← newTimingSpec { base_cast_time := (.int 0), animation_lock := (.int 0) })),
      ((.str "3 Repertoire"), (← newTimingSpec { base_cast_time := (.int 0), animation_lock := (.int 0) })),
      ((.str "4 Repertoire"), (← newTimingSpec { base_cast_time := (.int 0), animation_lock := (.int 0) }))])
    job_resource_spec := (mkDict [
      ((.str SimConsts.DEFAULT_CONDITION), (.tuple [(← newJobResourceSpec { name := (.str "Army's Coda"), change := (.int 1) })])),
      ((.str "Buff Only"), (.tuple [])),
      ((.str "1 Repertoire"), (.tuple [(← newJobResourceSpec { name := (.str "Army's Coda"), change := (.int 1) })])),
      ((.str "2 Repertoire"), (.tuple [(← newJobResourceSpec { name := (.str "Army's Coda"), change := (.int 1) })])),
      ((.str "3 Repertoire"), (.tuple [(← newJobResourceSpec { name := (.str "Army's Coda"), change := (.int 1) })])),
      ((.str "4 Repertoire"), (.tuple [(← newJobResourceSpec { name := (.str "Army's Coda"), change := (.int 1) })]))])
    follow_up_skills := (mkDict [
      ((.str SimConsts.DEFAULT_CONDITION), (.tuple [])),
      ((.str "Buff Only"), (.tuple [])),
      ((.str "1 Repertoire"), (.tuple [army_paeon_rep1])),
      ((.str "2 Repertoire"), (.tuple [army_paeon_rep2])),
      ((.str "3 Repertoire"), (.tuple [army_paeon_rep3])),
      ((.str "4 Repertoire"), (.tuple [army_paeon_rep4]))])
    off_class_default_condition := (.str "Buff Only") })

/-- class_skills/ranged/brd.py:277-299 `__get_army_muse_follow_ups` -/
def get_army_muse_follow_ups (_env : Env) : Py PyVal := do
  let mut res : PyVal := .unbound
  let name : PyVal := (.str "Army's Muse")
  res := (.list [])
  let haste_and_auto_time_reductions : PyVal := (.list [(.float (1 / 100)), (.float (2 / 100)), (.float (4 / 100)), (.float (12 / 100))])
  for i in (← PyVal.iter (← PyVal.range (.int 0) (.int 4) (.int 1))) do
    res := (← PyVal.append res (← newFollowUp {
      skill := (← newSkill {
        name := name
        is_GCD := (.bool false)
        buff_spec := (← newStatusEffectSpec {
          haste_time_reduction := (← PyVal.getItem haste_and_auto_time_reductions i)
          auto_attack_delay_reduction := (← PyVal.getItem haste_and_auto_time_reductions i)
          duration := (← PyVal.mul (.int 10) (.int 1000)) }) })
      delay_after_parent_application := (.int 0) }))
  return res

/-- class_skills/ranged/brd.py:301-311 `raging_strikes` -/
def raging_strikes (_env : Env) : Py PyVal := do
  let name : PyVal := (.str "Raging Strikes")
  return (← newSkill {
    name := name
    is_GCD := (.bool false)
    buff_spec := (← newStatusEffectSpec {
      damage_mult := (.float (115 / 100))
      duration := (← PyVal.toInt (← PyVal.mul (.float (1998 / 100)) (.int 1000))) })
    timing_spec := (← newTimingSpec {
      base_cast_time := (.int 0)
      animation_lock := (.int 650)
      application_delay := (.int 540) }) })

/-- class_skills/ranged/brd.py:313-323 `bloodletter` -/
def bloodletter (env : Env) : Py PyVal := do
  let name : PyVal := (.str "Bloodletter")
  return (← newSkill {
    name := name
    is_GCD := (.bool false)
    damage_spec := (← newDamageSpec { potency := (← getPotency table env name) })
    timing_spec := (← newTimingSpec {
      base_cast_time := (.int 0)
      animation_lock := (.int 650)
      application_delay := (.int 1600) }) })

/-- class_skills/ranged/brd.py:325-404 `mages_ballad` -/
def mages_ballad (env : Env) : Py PyVal := do
  let name : PyVal := (.str "Mage's Ballad")
  let mages_ballad_potency : PyVal := (← ifExp (env.ge .p70)
    (.ok .none)
    (do return (← newDamageSpec {
        potency := (← getPotency table env name)
        trait_damage_mult_override := (.float (10 / 10)) })))
  let armys_muse_follow_ups : PyVal := (← get_army_muse_follow_ups env)
  return (← newSkill {
    name := name
    is_GCD := (.bool false)
    damage_spec := (mkDict [
      ((.str SimConsts.DEFAULT_CONDITION), mages_ballad_potency),
      ((.str "Buff Only"), .none)])
    buff_spec := (mkDict [
      ((.str SimConsts.DEFAULT_CONDITION), (← newStatusEffectSpec {
        damage_mult := (.float (101 / 100))
        duration := (← PyVal.mul (.int 45) (.int 1000))
        is_party_effect := (.bool true)
        expires_status_effects := (.tuple [(.str "The Wanderer's Minuet"), (.str "Army's Paeon")]) })),
      ((.str "Buff Only"), (← newStatusEffectSpec {
        damage_mult := (.float (101 / 100))
        duration := (← PyVal.mul (.int 45) (.int 1000))
        is_party_effect := (.bool true)
        expires_status_effects := (.tuple [(.str "The Wanderer's Minuet"), (.str "Army's Paeon")]) })),
      ((.str "From Log, Buff Only"), (← newStatusEffectSpec {
        damage_mult := (.float (101 / 100))
        duration := (← PyVal.mul (.int 5) (.int 1000))
        max_duration := (← PyVal.mul (.int 5) (.int 1000))
        is_party_effect := (.bool true)
        extends_existing_duration := (.bool true)
        expires_status_effects := (.tuple [(.str "The Wanderer's Minuet"), (.str "Army's Paeon")]) })),
      ((.str "From Log"), (← newStatusEffectSpec {
        damage_mult := (.float (101 / 100))
        duration := (← PyVal.mul (.int 5) (.int 1000))
        max_duration := (← PyVal.mul (.int 5) (.int 1000))
        is_party_effect := (.bool true)
        extends_existing_duration := (.bool true)
        expires_status_effects := (.tuple [(.str "The Wanderer's Minuet"), (.str "Army's Paeon")]) }))])
    timing_spec := (← instantTimingSpec)
    job_resource_spec := (mkDict [
      ((.str SimConsts.DEFAULT_CONDITION), (.tuple [(← newJobResourceSpec { name := (.str "Mage's Coda"), change := (.int 1) })])),
      ((.str "Buff Only"), (.tuple []))])
    follow_up_skills := (mkDict [
      ((.str SimConsts.DEFAULT_CONDITION), (.tuple [])),
      ((.str "Army's Muse, 1 Repertoire"), (.tuple [(← PyVal.getItem armys_muse_follow_ups (.int 0))])),
      ((.str "Army's Muse, 2 Repertoire"), (.tuple [(← PyVal.getItem armys_muse_follow_ups (.int 1))])),
      ((.str "Army's Muse, 3 Repertoire"), (.tuple [(← PyVal.getItem armys_muse_follow_ups (.int 2))])),
      ((.str "Army's Muse, 4 Repertoire"), (.tuple [(← PyVal.getItem armys_muse_follow_ups (.int 3))])),
      ((.str "Buff Only"), (.tuple []))])
    off_class_default_condition := (.str "Buff Only") })

/-- class_skills/ranged/brd.py:406-417 `rain_of_death` -/
def rain_of_death (env : Env) : Py PyVal := do
  let name : PyVal := (.str "Rain of Death")
  return (← newSkill {
    name := name
    is_GCD := (.bool false)
    damage_spec := (← newDamageSpec { potency := (← getPotency table env name) })
    timing_spec := (← newTimingSpec {
      base_cast_time := (.int 0)
      animation_lock := (.int 650)
      application_delay := (.int 1650) })
    has_aoe := (.bool true) })

/-- class_skills/ranged/brd.py:419-433 `battle_voice` -/
def battle_voice (env : Env) : Py PyVal := do
  let name : PyVal := (.str "Battle Voice")
  return (← newSkill {
    name := name
    is_GCD := (.bool false)
    buff_spec := (← newStatusEffectSpec {
      dh_rate_add := (.float (20 / 100))
      duration := (← getSkillData table env name (.str "duration"))
      is_party_effect := (.bool true) })
    timing_spec := (← newTimingSpec {
      base_cast_time := (.int 0)
      animation_lock := (.int 650)
      application_delay := (.int 620) }) })

/-- class_skills/ranged/brd.py:435-513 `the_wanderers_minuet` -/
def the_wanderers_minuet (env : Env) : Py PyVal := do
  let name : PyVal := (.str "The Wanderer's Minuet")
  let wanderers_potency : PyVal := (← ifExp (env.ge .p70)
    (.ok .none)
    (do return (← newDamageSpec {
        potency := (← getPotency table env name)
        trait_damage_mult_override := (.float (10 / 10)) })))
  let armys_muse_follow_ups : PyVal := (← get_army_muse_follow_ups env)
  return (← newSkill {
    name := name
    is_GCD := (.bool false)
    damage_spec := (mkDict [
      ((.str SimConsts.DEFAULT_CONDITION), wanderers_potency),
      ((.str "Buff Only"), .none)])
    buff_spec := (mkDict [
      ((.str SimConsts.DEFAULT_CONDITION), (← newStatusEffectSpec {
        crit_rate_add := (.float (2 / 100))
        duration := (← PyVal.mul (.int 45) (.int 1000))
        is_party_effect := (.bool true)
        expires_status_effects := (.tuple [(.str "Army's Paeon"), (.str "Mage's Ballad")]) })),
      ((.str "Buff Only"), (← newStatusEffectSpec {
        crit_rate_add := (.float (2 / 100))
        duration := (← PyVal.mul (.int 45) (.int 1000))
        is_party_effect := (.bool true)
        expires_status_effects := (.tuple [(.str "Army's Paeon"), (.str "Mage's Ballad")]) })),
      ((.str "From Log, Buff Only"), (← newStatusEffectSpec {
        crit_rate_add := (.float (2 / 100))
        duration := (← PyVal.mul (.int 5) (.int 1000))
        max_duration := (← PyVal.mul (.int 5) (.int 1000))
        is_party_effect := (.bool true)
        extends_existing_duration := (.bool true)
        expires_status_effects := (.tuple [(.str "Army's Paeon"), (.str "Mage's Ballad")]) })),
      ((.str "From Log"), (← newStatusEffectSpec {
        crit_rate_add := (.float (2 / 100))
        duration := (← PyVal.mul (.int 5) (.int 1000))
        max_duration := (← PyVal.mul (.int 5) (.int 1000))
        is_party_effect := (.bool true)
        extends_existing_duration := (.bool true)
        expires_status_effects := (.tuple [(.str "Army's Paeon"), (.str "Mage's Ballad")]) }))])
    timing_spec := (← instantTimingSpec)
    job_resource_spec := (mkDict [
      ((.str SimConsts.DEFAULT_CONDITION), (.tuple [(← newJobResourceSpec { name := (.str "Wanderer's Coda"), change := (.int 1) })])),
      ((.str "Buff Only"), (.tuple []))])
    follow_up_skills := (mkDict [
      ((.str SimConsts.DEFAULT_CONDITION), (.tuple [])),
      ((.str "Army's Muse, 1 Repertoire"), (.tuple [(← PyVal.getItem armys_muse_follow_ups (.int 0))])),
      ((.str "Army's Muse, 2 Repertoire"), (.tuple [(← PyVal.getItem armys_muse_follow_ups (.int 1))])),
      ((.str "Army's Muse, 3 Repertoire"), (.tuple [(← PyVal.getItem armys_muse_follow_ups (.int 2))])),
      ((.str "Army's Muse, 4 Repertoire"), (.tuple [(← PyVal.getItem armys_muse_follow_ups (.int 3))])),
      ((.str "Buff Only"), (.tuple []))])
    off_class_default_condition := (.str "Buff Only") })

/-- class_skills/ranged/brd.py:515-541 `pitch_perfect` -/
def pitch_perfect (env : Env) : Py PyVal := do
  let name : PyVal := (.str "Pitch Perfect")
  return (← newSkill {
    name := name
    is_GCD := (.bool false)
    damage_spec := (mkDict [
      ((.str SimConsts.DEFAULT_CONDITION), (← newDamageSpec { potency := (← getSkillData table env name (.str "3 Repertoire")) })),
      ((.str "1 Repertoire"), (← newDamageSpec { potency := (← getSkillData table env name (.str "1 Repertoire")) })),
      ((.str "2 Repertoire"), (← newDamageSpec { potency := (← getSkillData table env name (.str "2 Repertoire")) })),
      ((.str "3 Repertoire"), (← newDamageSpec { potency := (← getSkillData table env name (.str "3 Repertoire")) }))])
    timing_spec := (← newTimingSpec {
      base_cast_time := (.int 0)
      animation_lock := (.int 650)
      application_delay := (.int 800) })
    job_resource_spec := (.tuple [
      (← newJobResourceSpec { name := (.str "Repertoire"), change := (← PyVal.neg (.inf)) })])
    has_aoe := (.bool true)
    aoe_dropoff := (.float (5 / 10)) })

/-- class_skills/ranged/brd.py:543-553 `empyreal_arrow` -/
def empyreal_arrow (env : Env) : Py PyVal := do
  let name : PyVal := (.str "Empyreal Arrow")
  return (← newSkill {
    name := name
    is_GCD := (.bool false)
    damage_spec := (← newDamageSpec { potency := (← getPotency table env name) })
    timing_spec := (← newTimingSpec {
      base_cast_time := (.int 0)
      animation_lock := (.int 650)
      application_delay := (.int 1030) }) })

/-- class_skills/ranged/brd.py:555-628 `iron_jaws` -/
def iron_jaws (env : Env) : Py PyVal := do
  let mut iron_jaws_skill : PyVal := .unbound
  let mut iron_jaw_barrage2 : PyVal := .unbound
  let mut iron_jaw_barrage3 : PyVal := .unbound
  let name : PyVal := (.str "Iron Jaws")
  let stormbite_follow_up : PyVal := (← get_stormbite_follow_up env)
  let caustic_bite_follow_up : PyVal := (← get_caustic_bite_follow_up env)
  if env.ge .p70 then
    iron_jaws_skill := (← newSkill {
      name := name
      is_GCD := (.bool true)
      damage_spec := (← newDamageSpec { potency := (← getPotency table env name) })
      timing_spec := (← newTimingSpec {
        base_cast_time := (.int 0)
        animation_lock := (.int 650)
        application_delay := (.int 670) })
      follow_up_skills := (mkDict [
        ((.str SimConsts.DEFAULT_CONDITION), (.tuple [stormbite_follow_up, caustic_bite_follow_up])),
        ((.str "Stormbite"), (.tuple [stormbite_follow_up])),
        ((.str "Caustic Bite"), (.tuple [caustic_bite_follow_up])),
        ((.str "No Dot"), (.tuple []))]) })
  else
    iron_jaw_barrage2 := (← newFollowUp {
      skill := (← newSkill {
        name := name
        damage_spec := (← newDamageSpec { potency := (← getPotency table env name) }) })
      delay_after_parent_application := (.int 120) })
    iron_jaw_barrage3 := (← newFollowUp {
      skill := (← newSkill {
        name := name
        damage_spec := (← newDamageSpec { potency := (← getPotency table env name) }) })
      delay_after_parent_application := (.int 240) })
    iron_jaws_skill := (← newSkill {
      name := name
      is_GCD := (.bool true)
      damage_spec := (← newDamageSpec { potency := (← getPotency table env name) })
      timing_spec := (← newTimingSpec {
        base_cast_time := (.int 0)
        animation_lock := (.int 650)
        application_delay := (.int 670) })
      follow_up_skills := (mkDict [
        ((.str SimConsts.DEFAULT_CONDITION), (.tuple [stormbite_follow_up, caustic_bite_follow_up])),
        ((.str "Stormbite"), (.tuple [stormbite_follow_up])),
        ((.str "Caustic Bite"), (.tuple [caustic_bite_follow_up])),
        ((.str "No Dot"), (.tuple [])),
        ((.str "Barrage"), (.tuple [
          stormbite_follow_up,
          caustic_bite_follow_up,
          iron_jaw_barrage2,
          iron_jaw_barrage3])),
        ((.str "Barrage, Stormbite"), (.tuple [stormbite_follow_up, iron_jaw_barrage2, iron_jaw_barrage3])),
        ((.str "Barrage, Caustic Bite"), (.tuple [caustic_bite_follow_up, iron_jaw_barrage2, iron_jaw_barrage3])),
        ((.str "Barrage, No Dot"), (.tuple [iron_jaw_barrage2, iron_jaw_barrage3]))]) })
  return iron_jaws_skill

/-- class_skills/ranged/brd.py:630-640 `sidewinder` -/
def sidewinder (env : Env) : Py PyVal := do
  let name : PyVal := (.str "Sidewinder")
  return (← newSkill {
    name := name
    is_GCD := (.bool false)
    damage_spec := (← newDamageSpec { potency := (← getPotency table env name) })
    timing_spec := (← newTimingSpec {
      base_cast_time := (.int 0)
      animation_lock := (.int 650)
      application_delay := (.int 530) }) })

/-- class_skills/ranged/brd.py:642-689 `cautic_bite` -/
def cautic_bite (env : Env) : Py PyVal := do
  let mut caustic_bite_skill : PyVal := .unbound
  let mut caustic_bite_barrage2 : PyVal := .unbound
  let mut caustic_bite_barrage3 : PyVal := .unbound
  let name : PyVal := (.str "Caustic Bite")
  let caustic_bite_follow_up : PyVal := (← get_caustic_bite_follow_up env)
  if env.ge .p70 then
    caustic_bite_skill := (← newSkill {
      name := name
      is_GCD := (.bool false)
      damage_spec := (← newDamageSpec { potency := (← getPotency table env name) })
      timing_spec := (← newTimingSpec {
        base_cast_time := (.int 0)
        animation_lock := (.int 650)
        application_delay := (.int 1290) })
      follow_up_skills := (.tuple [caustic_bite_follow_up]) })
  else
    caustic_bite_barrage2 := (← newFollowUp {
      skill := (← newSkill {
        name := name
        damage_spec := (← newDamageSpec { potency := (← getPotency table env name) }) })
      delay_after_parent_application := (.int 120) })
    caustic_bite_barrage3 := (← newFollowUp {
      skill := (← newSkill {
        name := name
        damage_spec := (← newDamageSpec { potency := (← getPotency table env name) }) })
      delay_after_parent_application := (.int 240) })
    caustic_bite_skill := (← newSkill {
      name := name
      is_GCD := (.bool false)
      damage_spec := (← newDamageSpec { potency := (← getPotency table env name) })
      timing_spec := (← newTimingSpec {
        base_cast_time := (.int 0)
        animation_lock := (.int 650)
        application_delay := (.int 1290) })
      follow_up_skills := (mkDict [
        ((.str SimConsts.DEFAULT_CONDITION), (.tuple [caustic_bite_follow_up])),
        ((.str "Barrage"), (.tuple [caustic_bite_follow_up, caustic_bite_barrage2, caustic_bite_barrage3]))]) })
  return caustic_bite_skill

/-- class_skills/ranged/brd.py:691-739 `stormbite` -/
def stormbite (env : Env) : Py PyVal := do
  let mut stormbite_skill : PyVal := .unbound
  let mut stormbite_barrage2 : PyVal := .unbound
  let mut stormbite_barrage3 : PyVal := .unbound
  let name : PyVal := (.str "Stormbite")
  let stormbite_follow_up : PyVal := (← get_stormbite_follow_up env)
  if env.ge .p70 then
    stormbite_skill := (← newSkill {
      name := name
      is_GCD := (.bool false)
      damage_spec := (← newDamageSpec { potency := (← getPotency table env name) })
      timing_spec := (← newTimingSpec {
        base_cast_time := (.int 0)
        animation_lock := (.int 650)
        application_delay := (.int 1290) })
      follow_up_skills := (.tuple [stormbite_follow_up]) })
  else
    stormbite_barrage2 := (← newFollowUp {
      skill := (← newSkill {
        name := name
        is_GCD := (.bool false)
        damage_spec := (← newDamageSpec { potency := (← getPotency table env name) }) })
      delay_after_parent_application := (.int 120) })
    stormbite_barrage3 := (← newFollowUp {
      skill := (← newSkill {
        name := name
        is_GCD := (.bool false)
        damage_spec := (← newDamageSpec { potency := (← getPotency table env name) }) })
      delay_after_parent_application := (.int 240) })
    stormbite_skill := (← newSkill {
      name := name
      is_GCD := (.bool false)
      damage_spec := (← newDamageSpec { potency := (← getPotency table env name) })
      timing_spec := (← newTimingSpec {
        base_cast_time := (.int 0)
        animation_lock := (.int 650)
        application_delay := (.int 1290) })
      follow_up_skills := (mkDict [
        ((.str SimConsts.DEFAULT_CONDITION), (.tuple [stormbite_follow_up])),
        ((.str "Barrage"), (.tuple [stormbite_follow_up, stormbite_barrage2, stormbite_barrage3]))]) })
  return stormbite_skill

/-- class_skills/ranged/brd.py:741-771 `refulgent_arrow` -/
def refulgent_arrow (env : Env) : Py PyVal := do
  let name : PyVal := (.str "Refulgent Arrow")
  let refulgent_arrow_barrage2 : PyVal := (← newFollowUp {
    skill := (← newSkill {
      name := name
      is_GCD := (.bool false)
      damage_spec := (← newDamageSpec { potency := (← getPotency table env name) }) })
    delay_after_parent_application := (.int 120) })
  let refulgent_arrow_barrage3 : PyVal := (← newFollowUp {
    skill := (← newSkill {
      name := name
      is_GCD := (.bool false)
      damage_spec := (← newDamageSpec { potency := (← getPotency table env name) }) })
    delay_after_parent_application := (.int 240) })
  return (← newSkill {
    name := name
    is_GCD := (.bool true)
    damage_spec := (← newDamageSpec { potency := (← getPotency table env name) })
    timing_spec := (← newTimingSpec {
      base_cast_time := (.int 0)
      animation_lock := (.int 650)
      application_delay := (.int 1470) })
    follow_up_skills := (mkDict [
      ((.str SimConsts.DEFAULT_CONDITION), (.tuple [])),
      ((.str "Barrage"), (.tuple [refulgent_arrow_barrage2, refulgent_arrow_barrage3]))]) })

/-- class_skills/ranged/brd.py:773-791 `shadowbite` -/
def shadowbite (env : Env) : Py PyVal := do
  let name : PyVal := (.str "Shadowbite")
  return (← newSkill {
    name := name
    is_GCD := (.bool true)
    damage_spec := (mkDict [
      ((.str SimConsts.DEFAULT_CONDITION), (← newDamageSpec { potency := (← getSkillData table env name (.str "potency")) })),
      ((.str "Barrage"), (← newDamageSpec { potency := (← getSkillData table env name (.str "potency_barrage")) }))])
    timing_spec := (← newTimingSpec {
      base_cast_time := (.int 0)
      animation_lock := (.int 650)
      application_delay := (.int 1430) })
    has_aoe := (.bool true) })

/-- class_skills/ranged/brd.py:793-834 `burst_shot` -/
def burst_shot (env : Env) : Py PyVal := do
  let mut burst_shot_skill : PyVal := .unbound
  let mut burst_shot_barrage2 : PyVal := .unbound
  let mut burst_shot_barrage3 : PyVal := .unbound
  let name : PyVal := (.str "Burst Shot")
  if env.ge .p70 then
    burst_shot_skill := (← newSkill {
      name := name
      is_GCD := (.bool true)
      damage_spec := (← newDamageSpec { potency := (← getPotency table env name) })
      timing_spec := (← newTimingSpec {
        base_cast_time := (.int 0)
        animation_lock := (.int 650)
        application_delay := (.int 1470) }) })
  else
    burst_shot_barrage2 := (← newFollowUp {
      skill := (← newSkill {
        name := name
        is_GCD := (.bool false)
        damage_spec := (← newDamageSpec { potency := (← getPotency table env name) }) })
      delay_after_parent_application := (.int 120) })
    burst_shot_barrage3 := (← newFollowUp {
      skill := (← newSkill {
        name := name
        is_GCD := (.bool false)
        damage_spec := (← newDamageSpec { potency := (← getPotency table env name) }) })
      delay_after_parent_application := (.int 240) })
    burst_shot_skill := (← newSkill {
      name := name
      is_GCD := (.bool true)
      damage_spec := (← newDamageSpec { potency := (← getPotency table env name) })
      timing_spec := (← newTimingSpec {
        base_cast_time := (.int 0)
        animation_lock := (.int 650)
        application_delay := (.int 1470) })
      follow_up_skills := (mkDict [
        ((.str SimConsts.DEFAULT_CONDITION), (.tuple [])),
        ((.str "Barrage"), (.tuple [burst_shot_barrage2, burst_shot_barrage3]))]) })
  return burst_shot_skill

/-- class_skills/ranged/brd.py:836-903 `apex_arrow` -/
def apex_arrow (env : Env) : Py PyVal := do
  let name : PyVal := (.str "Apex Arrow")
  return (← newSkill {
    name := name
    is_GCD := (.bool true)
    damage_spec := (mkDict [
      ((.str SimConsts.DEFAULT_CONDITION), (← newDamageSpec { potency := (← getSkillData table env name (.str "100 Soul Voice")) })),
      ((.str "20 Soul Voice"), (← newDamageSpec { potency := (← getSkillData table env name (.str "20 Soul Voice")) })),
      ((.str "25 Soul Voice"), (← newDamageSpec { potency := (← getSkillData table env name (.str "25 Soul Voice")) })),
      ((.str "30 Soul Voice"), (← newDamageSpec { potency := (← getSkillData table env name (.str "30 Soul Voice")) })),
      ((.str "35 Soul Voice"), (← newDamageSpec { potency := (← getSkillData table env name (.str "35 Soul Voice")) })),
      ((.str "40 Soul Voice"), (← newDamageSpec { potency := (← getSkillData table env name (.str "40 Soul Voice")) })),
      ((.str "45 Soul Voice"), (← newDamageSpec { potency := (← getSkillData table env name (.str "45 Soul Voice")) })),
      ((.str "50 Soul Voice"), (← newDamageSpec { potency := (← getSkillData table env name (.str "50 Soul Voice")) })),
      ((.str "55 Soul Voice"), (← newDamageSpec { potency := (← getSkillData table env name (.str "55 Soul Voice")) })),
      ((.str "60 Soul Voice"), (← newDamageSpec { potency := (← getSkillData table env name (.str "60 Soul Voice")) })),
      ((.str "65 Soul Voice"), (← newDamageSpec { potency := (← getSkillData table env name (.str "65 Soul Voice")) })),
      ((.str "70 Soul Voice"), (← newDamageSpec { potency := (← getSkillData table env name (.str "70 Soul Voice")) })),
      ((.str "75 Soul Voice"), (← newDamageSpec { potency := (← getSkillData table env name (.str "75 Soul Voice")) })),
      ((.str "80 Soul Voice"), (← newDamageSpec { potency := (← getSkillData table env name (.str "80 Soul Voice")) })),
      ((.str "85 Soul Voice"), (← newDamageSpec { potency := (← getSkillData table env name (.str "85 Soul Voice")) })),
      ((.str "90 Soul Voice"), (← newDamageSpec { potency := (← getSkillData table env name (.str "90 Soul Voice")) })),
      ((.str "95 Soul Voice"), (← newDamageSpec { potency := (← getSkillData table env name (.str "95 Soul Voice")) })),
      ((.str "100 Soul Voice"), (← newDamageSpec { potency := (← getSkillData table env name (.str "100 Soul Voice")) }))])
    timing_spec := (← newTimingSpec {
      base_cast_time := (.int 0)
      animation_lock := (.int 650)
      application_delay := (.int 1070) })
    job_resource_spec := (.tuple [
      (← newJobResourceSpec { name := (.str "Soul Voice"), change := (← PyVal.neg (.inf)) })])
    has_aoe := (.bool true) })

/-- class_skills/ranged/brd.py:905-936 `ladonsbite` -/
def ladonsbite (env : Env) : Py PyVal := do
  let name : PyVal := (.str "Ladonsbite")
  let ladonsbite_barrage2 : PyVal := (← newFollowUp {
    skill := (← newSkill {
      name := name
      is_GCD := (.bool false)
      damage_spec := (← newDamageSpec { potency := (← getPotency table env name) }) })
    delay_after_parent_application := (.int 120) })
  let ladonsbite_barrage3 : PyVal := (← newFollowUp {
    skill := (← newSkill {
      name := name
      is_GCD := (.bool false)
      damage_spec := (← newDamageSpec { potency := (← getPotency table env name) }) })
    delay_after_parent_application := (.int 240) })
  return (← newSkill {
    name := name
    is_GCD := (.bool true)
    damage_spec := (← newDamageSpec { potency := (← getPotency table env name) })
    timing_spec := (← newTimingSpec {
      base_cast_time := (.int 0)
      animation_lock := (.int 650)
      application_delay := (.int 1110) })
    follow_up_skills := (mkDict [
      ((.str SimConsts.DEFAULT_CONDITION), (.tuple [])),
      ((.str "Barrage"), (.tuple [ladonsbite_barrage2, ladonsbite_barrage3]))])
    has_aoe := (.bool true) })

/-- class_skills/ranged/brd.py:938-954 `blast_arrow` -/
def blast_arrow (env : Env) : Py PyVal := do
  let name : PyVal := (.str "Blast Arrow")
  return (← newSkill {
    name := name
    is_GCD := (.bool true)
    damage_spec := (mkDict [
      ((.str SimConsts.DEFAULT_CONDITION), (← newDamageSpec { potency := (← getPotency table env name) }))])
    timing_spec := (← newTimingSpec {
      base_cast_time := (.int 0)
      animation_lock := (.int 650)
      application_delay := (.int 1650) })
    has_aoe := (.bool true)
    aoe_dropoff := (.float (6 / 10)) })

/-- class_skills/ranged/brd.py:956-1104 `radiant_finale` -/
def radiant_finale (env : Env) : Py PyVal := do
  let name : PyVal := (.str "Radiant Finale")
  let encore1 : PyVal := (← newFollowUp {
    skill := (← newSkill {
      name := (.str "1 Encore")
      is_GCD := (.bool false)
      buff_spec := (← newStatusEffectSpec {
        add_to_skill_modifier_condition := (.bool true)
        num_uses := (.int 1)
        duration := (← PyVal.mul (.int 30) (.int 1000))
        skill_allowlist := (.tuple [(.str "Radiant Finale"), (.str "Radiant Encore")]) }) })
    delay_after_parent_application := (.int 0) })
  let encore2 : PyVal := (← newFollowUp {
    skill := (← newSkill {
      name := (.str "2 Encore")
      is_GCD := (.bool false)
      buff_spec := (← newStatusEffectSpec {
        add_to_skill_modifier_condition := (.bool true)
        num_uses := (.int 1)
        duration := (← PyVal.mul (.int 30) (.int 1000))
        skill_allowlist := (.tuple [(.str "Radiant Finale"), (.str "Radiant Encore")]) }) })
    delay_after_parent_application := (.int 0) })
  let encore3 : PyVal := (← newFollowUp {
    skill := (← newSkill {
      name := (.str "3 Encore")
      is_GCD := (.bool false)
      buff_spec := (← newStatusEffectSpec {
        add_to_skill_modifier_condition := (.bool true)
        num_uses := (.int 1)
        duration := (← PyVal.mul (.int 30) (.int 1000))
        skill_allowlist := (.tuple [(.str "Radiant Finale"), (.str "Radiant Encore")]) }) })
    delay_after_parent_application := (.int 0) })
  return (← newSkill {
    name := name
    is_GCD := (.bool false)
    buff_spec := (mkDict [
      ((.str SimConsts.DEFAULT_CONDITION), (← newStatusEffectSpec {
        damage_mult := (.float (106 / 100))
        duration := (← getSkillData table env name (.str "duration"))
        is_party_effect := (.bool true) })),
      ((.str "1 Mage's Coda"), (← newStatusEffectSpec {
        damage_mult := (.float (102 / 100))
        duration := (← getSkillData table env name (.str "duration"))
        is_party_effect := (.bool true) })),
      ((.str "1 Army's Coda"), (← newStatusEffectSpec {
        damage_mult := (.float (102 / 100))
        duration := (← getSkillData table env name (.str "duration"))
        is_party_effect := (.bool true) })),
      ((.str "1 Wanderer's Coda"), (← newStatusEffectSpec {
        damage_mult := (.float (102 / 100))
        duration := (← getSkillData table env name (.str "duration"))
        is_party_effect := (.bool true) })),
      ((.str "1 Mage's Coda, 1 Army's Coda"), (← newStatusEffectSpec {
        damage_mult := (.float (104 / 100))
        duration := (← getSkillData table env name (.str "duration"))
        is_party_effect := (.bool true) })),
      ((.str "1 Mage's Coda, 1 Wanderer's Coda"), (← newStatusEffectSpec {
        damage_mult := (.float (104 / 100))
        duration := (← getSkillData table env name (.str "duration"))
        is_party_effect := (.bool true) })),
      ((.str "1 Army's Coda, 1 Wanderer's Coda"), (← newStatusEffectSpec {
        damage_mult := (.float (104 / 100))
        duration := (← getSkillData table env name (.str "duration"))
        is_party_effect := (.bool true) })),
      ((.str "1 Mage's Coda, 1 Army's Coda, 1 Wanderer's Coda"), (← newStatusEffectSpec {
        damage_mult := (.float (106 / 100))
        duration := (← getSkillData table env name (.str "duration"))
        is_party_effect := (.bool true) })),
      ((.str "1 Coda"), (← newStatusEffectSpec {
        damage_mult := (.float (102 / 100))
        duration := (← getSkillData table env name (.str "duration"))
        is_party_effect := (.bool true) })),
      ((.str "2 Coda"), (← newStatusEffectSpec {
        damage_mult := (.float (104 / 100))
        duration := (← getSkillData table env name (.str "duration"))
        is_party_effect := (.bool true) })),
      ((.str "3 Coda"), (← newStatusEffectSpec {
        damage_mult := (.float (106 / 100))
        duration := (← getSkillData table env name (.str "duration"))
        is_party_effect := (.bool true) }))])
    job_resource_spec := (mkDict [
      ((.str SimConsts.DEFAULT_CONDITION), (.tuple [
        (← newJobResourceSpec { name := (.str "Mage's Coda"), change := (← PyVal.neg (.int 1)) }),
        (← newJobResourceSpec { name := (.str "Army's Coda"), change := (← PyVal.neg (.int 1)) }),
        (← newJobResourceSpec {
          name := (.str "Wanderer's Coda")
          change := (← PyVal.neg (.int 1)) })])),
      ((.str "1 Coda"), (.tuple [])),
      ((.str "2 Coda"), (.tuple [])),
      ((.str "3 Coda"), (.tuple [])),
      ((.str "1 Coda, Buff Only"), (.tuple [])),
      ((.str "2 Coda, Buff Only"), (.tuple [])),
      ((.str "3 Coda, Buff Only"), (.tuple [])),
      ((.str "Buff Only"), (.tuple []))])
    timing_spec := (← newTimingSpec {
      base_cast_time := (.int 0)
      animation_lock := (.int 650)
      application_delay := (.int 625) })
    follow_up_skills := (← ifExp (decide (env.level ≥ 100))
      (.ok (mkDict [
          ((.str SimConsts.DEFAULT_CONDITION), (.tuple [encore2])),
          ((.str "1 Mage's Coda"), (.tuple [encore1])),
          ((.str "1 Army's Coda"), (.tuple [encore1])),
          ((.str "1 Wanderer's Coda"), (.tuple [encore1])),
          ((.str "1 Mage's Coda, 1 Army's Coda"), (.tuple [encore2])),
          ((.str "1 Mage's Coda, 1 Wanderer's Coda"), (.tuple [encore2])),
          ((.str "1 Army's Coda, 1 Wanderer's Coda"), (.tuple [encore2])),
          ((.str "1 Mage's Coda, 1 Army's Coda, 1 Wanderer's Coda"), (.tuple [encore3])),
          ((.str "1 Coda"), (.tuple [])),
          ((.str "2 Coda"), (.tuple [])),
          ((.str "3 Coda"), (.tuple []))]))
      (.ok (.tuple []))) })

/-- class_skills/ranged/brd.py:1106-1134 `barrage` -/
def barrage (env : Env) : Py PyVal := do
  let name : PyVal := (.str "Barrage")
  return (← newSkill {
    name := name
    is_GCD := (.bool false)
    timing_spec := (← instantTimingSpec)
    buff_spec := (← newStatusEffectSpec {
      add_to_skill_modifier_condition := (.bool true)
      num_uses := (.int 1)
      duration := (← PyVal.mul (.int 10) (.int 1000))
      skill_allowlist := (← ifExp (env.ge .p70)
        (.ok (.tuple [(.str "Refulgent Arrow"), (.str "Shadowbite")]))
        (.ok (.tuple [
            (.str "Iron Jaws"), (.str "Caustic Bite"), (.str "Stormbite"), (.str "Refulgent Arrow"),
            (.str "Shadowbite"), (.str "Burst Shot"), (.str "Ladonsbite")]))) }) })

/-- class_skills/ranged/brd.py:1136-1148 `heartbreak_shot` -/
def heartbreak_shot (env : Env) : Py PyVal := do
  let name : PyVal := (.str "Heartbreak Shot")
  if decide (env.level < 92) then
    return .none
  return (← newSkill {
    name := name
    is_GCD := (.bool false)
    damage_spec := (← newDamageSpec { potency := (← getPotency table env name) })
    timing_spec := (← newTimingSpec {
      base_cast_time := (.int 0)
      animation_lock := (.int 650)
      application_delay := (.int 1650) }) })

/-- class_skills/ranged/brd.py:1150-1168 `resonant_arrow` -/
def resonant_arrow (env : Env) : Py PyVal := do
  let name : PyVal := (.str "Resonant Arrow")
  if decide (env.level < 96) then
    return .none
  return (← newSkill {
    name := name
    is_GCD := (.bool true)
    damage_spec := (mkDict [
      ((.str SimConsts.DEFAULT_CONDITION), (← newDamageSpec { potency := (← getPotency table env name) }))])
    timing_spec := (← newTimingSpec {
      base_cast_time := (.int 0)
      animation_lock := (.int 650)
      application_delay := (.int 1160) })
    has_aoe := (.bool true)
    aoe_dropoff := (.float (5 / 10)) })

/-- class_skills/ranged/brd.py:1170-1197 `radiant_encore` -/
def radiant_encore (env : Env) : Py PyVal := do
  let name : PyVal := (.str "Radiant Encore")
  if decide (env.level < 100) then
    return .none
  return (← newSkill {
    name := name
    is_GCD := (.bool true)
    damage_spec := (mkDict [
      ((.str SimConsts.DEFAULT_CONDITION), (← newDamageSpec { potency := (← getSkillData table env name (.str "3 Encore")) })),
      ((.str "3 Encore"), (← newDamageSpec { potency := (← getSkillData table env name (.str "3 Encore")) })),
      ((.str "2 Encore"), (← newDamageSpec { potency := (← getSkillData table env name (.str "2 Encore")) })),
      ((.str "1 Encore"), (← newDamageSpec { potency := (← getSkillData table env name (.str "1 Encore")) }))])
    timing_spec := (← newTimingSpec {
      base_cast_time := (.int 0)
      animation_lock := (.int 650)
      application_delay := (.int 1960) })
    has_aoe := (.bool true)
    aoe_dropoff := (.float (5 / 10)) })

/-- class_skills/ranged/brd.py:1199-1233 `add_soul_voice` -/
def add_soul_voice (_env : Env) : Py PyVal := do
  let name : PyVal := (.str "Add Soul Voice")
  return (← newSkill {
    name := name
    is_GCD := (.bool false)
    timing_spec := (← newTimingSpec {
      base_cast_time := (.int 0)
      animation_lock := (.int 0)
      application_delay := (.int 0) })
    job_resource_spec := (mkDict [
      ((.str SimConsts.DEFAULT_CONDITION), (.tuple [(← newJobResourceSpec { name := (.str "Soul Voice"), change := (.int 5) })])),
      ((.str "5"), (.tuple [(← newJobResourceSpec { name := (.str "Soul Voice"), change := (.int 5) })])),
      ((.str "10"), (.tuple [(← newJobResourceSpec { name := (.str "Soul Voice"), change := (.int 10) })])),
      ((.str "15"), (.tuple [(← newJobResourceSpec { name := (.str "Soul Voice"), change := (.int 15) })])),
      ((.str "20"), (.tuple [(← newJobResourceSpec { name := (.str "Soul Voice"), change := (.int 20) })])),
      ((.str "25"), (.tuple [(← newJobResourceSpec { name := (.str "Soul Voice"), change := (.int 25) })])),
      ((.str "30"), (.tuple [(← newJobResourceSpec { name := (.str "Soul Voice"), change := (.int 30) })])),
      ((.str "35"), (.tuple [(← newJobResourceSpec { name := (.str "Soul Voice"), change := (.int 35) })])),
      ((.str "40"), (.tuple [(← newJobResourceSpec { name := (.str "Soul Voice"), change := (.int 40) })])),
      ((.str "45"), (.tuple [(← newJobResourceSpec { name := (.str "Soul Voice"), change := (.int 45) })])),
      ((.str "50"), (.tuple [(← newJobResourceSpec { name := (.str "Soul Voice"), change := (.int 50) })])),
      ((.str "55"), (.tuple [(← newJobResourceSpec { name := (.str "Soul Voice"), change := (.int 55) })])),
      ((.str "60"), (.tuple [(← newJobResourceSpec { name := (.str "Soul Voice"), change := (.int 60) })])),
      ((.str "65"), (.tuple [(← newJobResourceSpec { name := (.str "Soul Voice"), change := (.int 65) })])),
      ((.str "70"), (.tuple [(← newJobResourceSpec { name := (.str "Soul Voice"), change := (.int 70) })])),
      ((.str "75"), (.tuple [(← newJobResourceSpec { name := (.str "Soul Voice"), change := (.int 75) })])),
      ((.str "80"), (.tuple [(← newJobResourceSpec { name := (.str "Soul Voice"), change := (.int 80) })])),
      ((.str "85"), (.tuple [(← newJobResourceSpec { name := (.str "Soul Voice"), change := (.int 85) })])),
      ((.str "90"), (.tuple [(← newJobResourceSpec { name := (.str "Soul Voice"), change := (.int 90) })])),
      ((.str "95"), (.tuple [(← newJobResourceSpec { name := (.str "Soul Voice"), change := (.int 95) })])),
      ((.str "100"), (.tuple [(← newJobResourceSpec { name := (.str "Soul Voice"), change := (.int 100) })]))]) })

/-- class_skills/ranged/brd.py:1235-1252 `add_repertoire` -/
def add_repertoire (_env : Env) : Py PyVal := do
  let name : PyVal := (.str "Add Repertoire")
  return (← newSkill {
    name := name
    is_GCD := (.bool false)
    timing_spec := (← newTimingSpec {
      base_cast_time := (.int 0)
      animation_lock := (.int 0)
      application_delay := (.int 0) })
    job_resource_spec := (mkDict [
      ((.str SimConsts.DEFAULT_CONDITION), (.tuple [(← newJobResourceSpec { name := (.str "Repertoire"), change := (.int 1) })])),
      ((.str "1"), (.tuple [(← newJobResourceSpec { name := (.str "Repertoire"), change := (.int 1) })])),
      ((.str "2"), (.tuple [(← newJobResourceSpec { name := (.str "Repertoire"), change := (.int 2) })])),
      ((.str "3"), (.tuple [(← newJobResourceSpec { name := (.str "Repertoire"), change := (.int 3) })]))]) })

/-- class_skills/ranged/brd.py:19-1252 `BrdSkills`; the methods in the order of `dir`. -/
def job (env : Env) : JobClass where
  jobClass := "BRD"
  skillMethods := [
    add_repertoire env,
    add_soul_voice env,
    apex_arrow env,
    armys_paeon env,
    auto env,
    barrage env,
    battle_voice env,
    blast_arrow env,
    bloodletter env,
    burst_shot env,
    cautic_bite env,
    empyreal_arrow env,
    heartbreak_shot env,
    iron_jaws env,
    ladonsbite env,
    mages_ballad env,
    pitch_perfect env,
    radiant_encore env,
    radiant_finale env,
    raging_strikes env,
    rain_of_death env,
    refulgent_arrow env,
    resonant_arrow env,
    shadowbite env,
    sidewinder env,
    stormbite env,
    the_wanderers_minuet env]
  resourceMethods := [armys_coda env, mages_coda env, repertoire env, soul_voice env, wanderers_coda env]

end Ama.GameData.Brd
