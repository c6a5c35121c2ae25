import Verif.Model.GameData.Values

/-!
# PCT

Model of `simulator/game_data/class_skills/caster/pct.py` and `simulator/game_data/class_skills/caster/pct_data.py`, written by
`tools/translate.py`: one function per method.  Paths in the comments are relative to
`simulator/game_data`.
-/

namespace Ama.GameData.Pct

open PyVal

/-- class_skills/caster/pct_data.py:7-60 `ALL_DATA` -/
def table : Table := [
  ("Fire in Red", [
    (90, [("potency", [(.p70, .ok (.int 380))])]),
    (100, [("potency", [(.p70, .ok (.int 440))])])]),
  ("Aero in Green", [
    (90, [("potency", [(.p70, .ok (.int 420))])]),
    (100, [("potency", [(.p70, .ok (.int 480))])])]),
  ("Water in Blue", [
    (90, [("potency", [(.p70, .ok (.int 460))])]),
    (100, [("potency", [(.p70, .ok (.int 520))])])]),
  ("Fire II in Red", [
    (90, [("potency", [(.p70, .ok (.int 100))])]),
    (100, [("potency", [(.p70, .ok (.int 120))])])]),
  ("Mog of the Ages", [
    (90, [("potency", [(.p70, .ok (.int 1300))])]),
    (100, [("potency", [(.p70, .ok (.int 1300))])])]),
  ("Pom Muse", [
    (90, [("potency", [(.p70, .ok (.int 1100))])]),
    (100, [("potency", [(.p70, .ok (.int 1100))])])]),
  ("Winged Muse", [
    (90, [("potency", [(.p70, .ok (.int 1100))])]),
    (100, [("potency", [(.p70, .ok (.int 1100))])])]),
  ("Aero II in Green", [
    (90, [("potency", [(.p70, .ok (.int 120))])]),
    (100, [("potency", [(.p70, .ok (.int 140))])])]),
  ("Water II in Blue", [
    (90, [("potency", [(.p70, .ok (.int 140))])]),
    (100, [("potency", [(.p70, .ok (.int 160))])])]),
  ("Hammer Stamp", [
    (90, [("potency", [(.p70, .ok (.int 520))])]),
    (100, [("potency", [(.p70, .ok (.int 560))])])]),
  ("Blizzard in Cyan", [
    (90, [("potency", [(.p70, .ok (.int 700))])]),
    (100, [("potency", [(.p70, .ok (.int 800))])])]),
  ("Blizzard II in Cyan", [
    (90, [("potency", [(.p70, .ok (.int 220))])]),
    (100, [("potency", [(.p70, .ok (.int 240))])])]),
  ("Stone in Yellow", [
    (90, [("potency", [(.p70, .ok (.int 740))])]),
    (100, [("potency", [(.p70, .ok (.int 840))])])]),
  ("Thunder in Magenta", [
    (90, [("potency", [(.p70, .ok (.int 780))])]),
    (100, [("potency", [(.p70, .ok (.int 880))])])]),
  ("Stone II in Yellow", [
    (90, [("potency", [(.p70, .ok (.int 240))])]),
    (100, [("potency", [(.p70, .ok (.int 260))])])]),
  ("Thunder II in Magenta", [
    (90, [("potency", [(.p70, .ok (.int 260))])]),
    (100, [("potency", [(.p70, .ok (.int 280))])])]),
  ("Holy in White", [
    (90, [("potency", [(.p70, .ok (.int 460))])]),
    (100, [("potency", [(.p70, .ok (.int 520))])])]),
  ("Hammer Brush", [
    (90, [("potency", [(.p70, .ok (.int 580))])]),
    (100, [("potency", [(.p70, .ok (.int 620))])])]),
  ("Polishing Hammer", [
    (90, [("potency", [(.p70, .ok (.int 640))])]),
    (100, [("potency", [(.p70, .ok (.int 680))])])]),
  ("Comet in Black", [
    (90, [("potency", [(.p70, .ok (.int 780))])]),
    (100, [("potency", [(.p70, .ok (.int 880))])])]),
  ("Rainbow Drip", [(100, [("potency", [(.p70, .ok (.int 1000))])])]),
  ("Clawed Muse", [(100, [("potency", [(.p70, .ok (.int 1100))])])]),
  ("Fanged Muse", [(100, [("potency", [(.p70, .ok (.int 1100))])])]),
  ("Retribution of the Madeen", [(100, [("potency", [(.p70, .ok (.int 1400))])])]),
  ("Star Prism", [(100, [("potency", [(.p70, .ok (.int 1400))])])])]

/-- class_skills/caster/pct.py:25-25 `__pct_caster_tax_ms`, set by the constructor -/
def attr_pct_caster_tax_ms (_env : Env) : Py PyVal := do
  return (.int 100)

/-- class_skills/caster/pct.py:26-26 `__base_animation_lock`, set by the constructor -/
def attr_base_animation_lock (_env : Env) : Py PyVal := do
  return (.int 600)

/-- class_skills/caster/pct.py:27-29 `__pct_instant_timing_spec`, set by the constructor -/
def attr_pct_instant_timing_spec (env : Env) : Py PyVal := do
  return (← newTimingSpec {
    base_cast_time := (.int 0)
    animation_lock := (← attr_base_animation_lock env) })

/-- class_skills/caster/pct.py:30-47 `__aetherhue_skills`, set by the constructor -/
def attr_aetherhue_skills (_env : Env) : Py PyVal := do
  return (.tuple [
    (.str "Starry Muse"), (.str "Fire in Red"), (.str "Aero in Green"),
    (.str "Water in Blue"), (.str "Fire II in Red"), (.str "Aero II in Green"),
    (.str "Water II in Blue"), (.str "Blizzard in Cyan"), (.str "Blizzard II in Cyan"),
    (.str "Stone in Yellow"), (.str "Stone II in Yellow"), (.str "Thunder in Magenta"),
    (.str "Thunder II in Magenta"), (.str "Holy in White"), (.str "Comet in Black"),
    (.str "Star Prism")])

/-- class_skills/caster/pct.py:49-56 `hyperphantasia` -/
def hyperphantasia (env : Env) : Py PyVal := do
  let name : PyVal := (.str "Hyperphantasia")
  let job_resource_settings : PyVal := (← newJobResourceSettings {
    max_value := (.int 5)
    skill_allowlist := (← attr_aetherhue_skills env) })
  return (.tuple [name, job_resource_settings])

/-- class_skills/caster/pct.py:58-72 `__get_rainbow_bright_follow_up` -/
def get_rainbow_bright_follow_up (_env : Env) : Py PyVal := do
  let name : PyVal := (.str "Rainbow Bright")
  return (← newFollowUp {
    skill := (← newSkill {
      name := name
      buff_spec := (← newStatusEffectSpec {
        add_to_skill_modifier_condition := (.bool true)
        num_uses := (.int 1)
        duration := (← PyVal.mul (.int 30) (.int 1000))
        flat_gcd_recast_time_reduction := (.int 3500)
        skill_allowlist := (.tuple [(.str "Rainbow Drip")]) }) })
    delay_after_parent_application := (.int 0) })

/-- class_skills/caster/pct.py:74-84 `auto` -/
def auto (_env : Env) : Py PyVal := do
  let name : PyVal := (.str "Auto")
  return (← newSkill {
    name := name
    is_GCD := (.bool false)
    timing_spec := (← autoTimingSpec)
    damage_spec := (← newDamageSpec {
      potency := (.int 90)
      damage_class := (.damageClass .auto)
      trait_damage_mult_override := (.int 1) }) })

/-- class_skills/caster/pct.py:86-103 `fire_in_red` -/
def fire_in_red (env : Env) : Py PyVal := do
  let name : PyVal := (.str "Fire in Red")
  return (← newSkill {
    name := name
    is_GCD := (.bool true)
    damage_spec := (← newDamageSpec { potency := (← getPotency table env name) })
    timing_spec := (← newTimingSpec {
      base_cast_time := (.int 1500)
      animation_lock := (← attr_pct_caster_tax_ms env)
      application_delay := (.int 840) })
    job_resource_spec := (.tuple [
      (← newJobResourceSpec {
        name := (.str "Hyperphantasia")
        change := (← PyVal.neg (.int 1)) })])
    follow_up_skills := (mkDict [
      ((.str SimConsts.DEFAULT_CONDITION), (.tuple [])),
      ((.str "1 Hyperphantasia"), (.tuple [(← get_rainbow_bright_follow_up env)]))]) })

/-- class_skills/caster/pct.py:105-122 `aero_in_freen` -/
def aero_in_freen (env : Env) : Py PyVal := do
  let name : PyVal := (.str "Aero in Green")
  return (← newSkill {
    name := name
    is_GCD := (.bool true)
    damage_spec := (← newDamageSpec { potency := (← getPotency table env name) })
    timing_spec := (← newTimingSpec {
      base_cast_time := (.int 1500)
      animation_lock := (← attr_pct_caster_tax_ms env)
      application_delay := (.int 890) })
    job_resource_spec := (.tuple [
      (← newJobResourceSpec {
        name := (.str "Hyperphantasia")
        change := (← PyVal.neg (.int 1)) })])
    follow_up_skills := (mkDict [
      ((.str SimConsts.DEFAULT_CONDITION), (.tuple [])),
      ((.str "1 Hyperphantasia"), (.tuple [(← get_rainbow_bright_follow_up env)]))]) })

/-- class_skills/caster/pct.py:124-141 `water_in_blue` -/
def water_in_blue (env : Env) : Py PyVal := do
  let name : PyVal := (.str "Water in Blue")
  return (← newSkill {
    name := name
    is_GCD := (.bool true)
    damage_spec := (← newDamageSpec { potency := (← getPotency table env name) })
    timing_spec := (← newTimingSpec {
      base_cast_time := (.int 1500)
      animation_lock := (← attr_pct_caster_tax_ms env)
      application_delay := (.int 980) })
    job_resource_spec := (.tuple [
      (← newJobResourceSpec {
        name := (.str "Hyperphantasia")
        change := (← PyVal.neg (.int 1)) })])
    follow_up_skills := (mkDict [
      ((.str SimConsts.DEFAULT_CONDITION), (.tuple [])),
      ((.str "1 Hyperphantasia"), (.tuple [(← get_rainbow_bright_follow_up env)]))]) })

/-- class_skills/caster/pct.py:143-161 `fire_ii_in_red` -/
def fire_ii_in_red (env : Env) : Py PyVal := do
  let name : PyVal := (.str "Fire II in Red")
  return (← newSkill {
    name := name
    is_GCD := (.bool true)
    damage_spec := (← newDamageSpec { potency := (← getPotency table env name) })
    timing_spec := (← newTimingSpec {
      base_cast_time := (.int 1500)
      animation_lock := (← attr_pct_caster_tax_ms env)
      application_delay := (.int 840) })
    job_resource_spec := (.tuple [
      (← newJobResourceSpec {
        name := (.str "Hyperphantasia")
        change := (← PyVal.neg (.int 1)) })])
    follow_up_skills := (mkDict [
      ((.str SimConsts.DEFAULT_CONDITION), (.tuple [])),
      ((.str "1 Hyperphantasia"), (.tuple [(← get_rainbow_bright_follow_up env)]))])
    has_aoe := (.bool true) })

/-- class_skills/caster/pct.py:163-177 `mog_of_the_ages` -/
def mog_of_the_ages (env : Env) : Py PyVal := do
  let name : PyVal := (.str "Mog of the Ages")
  return (← newSkill {
    name := name
    is_GCD := (.bool false)
    damage_spec := (← newDamageSpec { potency := (← getPotency table env name) })
    timing_spec := (← newTimingSpec {
      base_cast_time := (.int 0)
      animation_lock := (← attr_base_animation_lock env)
      application_delay := (.int 1150) })
    has_aoe := (.bool true)
    aoe_dropoff := (.float (6 / 10)) })

/-- class_skills/caster/pct.py:179-193 `pom_muse` -/
def pom_muse (env : Env) : Py PyVal := do
  let name : PyVal := (.str "Pom Muse")
  return (← newSkill {
    name := name
    is_GCD := (.bool false)
    damage_spec := (← newDamageSpec { potency := (← getPotency table env name) })
    timing_spec := (← newTimingSpec {
      base_cast_time := (.int 0)
      animation_lock := (← attr_base_animation_lock env)
      application_delay := (.int 620) })
    has_aoe := (.bool true)
    aoe_dropoff := (.float (6 / 10)) })

/-- class_skills/caster/pct.py:195-209 `winged_muse` -/
def winged_muse (env : Env) : Py PyVal := do
  let name : PyVal := (.str "Winged Muse")
  return (← newSkill {
    name := name
    is_GCD := (.bool false)
    damage_spec := (← newDamageSpec { potency := (← getPotency table env name) })
    timing_spec := (← newTimingSpec {
      base_cast_time := (.int 0)
      animation_lock := (← attr_base_animation_lock env)
      application_delay := (.int 980) })
    has_aoe := (.bool true)
    aoe_dropoff := (.float (6 / 10)) })

/-- class_skills/caster/pct.py:211-229 `aero_ii_in_green` -/
def aero_ii_in_green (env : Env) : Py PyVal := do
  let name : PyVal := (.str "Aero II in Green")
  return (← newSkill {
    name := name
    is_GCD := (.bool true)
    damage_spec := (← newDamageSpec { potency := (← getPotency table env name) })
    timing_spec := (← newTimingSpec {
      base_cast_time := (.int 1500)
      animation_lock := (← attr_pct_caster_tax_ms env)
      application_delay := (.int 890) })
    job_resource_spec := (.tuple [
      (← newJobResourceSpec {
        name := (.str "Hyperphantasia")
        change := (← PyVal.neg (.int 1)) })])
    follow_up_skills := (mkDict [
      ((.str SimConsts.DEFAULT_CONDITION), (.tuple [])),
      ((.str "1 Hyperphantasia"), (.tuple [(← get_rainbow_bright_follow_up env)]))])
    has_aoe := (.bool true) })

/-- class_skills/caster/pct.py:231-249 `water_ii_in_blue` -/
def water_ii_in_blue (env : Env) : Py PyVal := do
  let name : PyVal := (.str "Water II in Blue")
  return (← newSkill {
    name := name
    is_GCD := (.bool true)
    damage_spec := (← newDamageSpec { potency := (← getPotency table env name) })
    timing_spec := (← newTimingSpec {
      base_cast_time := (.int 1500)
      animation_lock := (← attr_pct_caster_tax_ms env)
      application_delay := (.int 980) })
    job_resource_spec := (.tuple [
      (← newJobResourceSpec {
        name := (.str "Hyperphantasia")
        change := (← PyVal.neg (.int 1)) })])
    follow_up_skills := (mkDict [
      ((.str SimConsts.DEFAULT_CONDITION), (.tuple [])),
      ((.str "1 Hyperphantasia"), (.tuple [(← get_rainbow_bright_follow_up env)]))])
    has_aoe := (.bool true) })

/-- class_skills/caster/pct.py:251-269 `hammer_stamp` -/
def hammer_stamp (env : Env) : Py PyVal := do
  let name : PyVal := (.str "Hammer Stamp")
  return (← newSkill {
    name := name
    is_GCD := (.bool true)
    damage_spec := (← newDamageSpec {
      potency := (← getPotency table env name)
      guaranteed_crit := (.forced .forceYes)
      guaranteed_dh := (.forced .forceYes) })
    timing_spec := (← newTimingSpec {
      base_cast_time := (.int 0)
      animation_lock := (← attr_base_animation_lock env)
      application_delay := (.int 1380) })
    has_aoe := (.bool true)
    aoe_dropoff := (.float (6 / 10)) })

/-- class_skills/caster/pct.py:271-290 `blizzard_in_cyan` -/
def blizzard_in_cyan (env : Env) : Py PyVal := do
  let name : PyVal := (.str "Blizzard in Cyan")
  return (← newSkill {
    name := name
    is_GCD := (.bool true)
    damage_spec := (← newDamageSpec { potency := (← getPotency table env name) })
    timing_spec := (← newTimingSpec {
      base_cast_time := (.int 2300)
      animation_lock := (← attr_pct_caster_tax_ms env)
      application_delay := (.int 750)
      gcd_base_recast_time := (.int 3300) })
    job_resource_spec := (.tuple [
      (← newJobResourceSpec {
        name := (.str "Hyperphantasia")
        change := (← PyVal.neg (.int 1)) })])
    follow_up_skills := (mkDict [
      ((.str SimConsts.DEFAULT_CONDITION), (.tuple [])),
      ((.str "1 Hyperphantasia"), (.tuple [(← get_rainbow_bright_follow_up env)]))])
    has_aoe := (.bool true) })

/-- class_skills/caster/pct.py:292-310 `blizzard_ii_in_cyan` -/
def blizzard_ii_in_cyan (env : Env) : Py PyVal := do
  let name : PyVal := (.str "Blizzard II in Cyan")
  return (← newSkill {
    name := name
    is_GCD := (.bool true)
    damage_spec := (← newDamageSpec { potency := (← getPotency table env name) })
    timing_spec := (← newTimingSpec {
      base_cast_time := (.int 2300)
      animation_lock := (← attr_pct_caster_tax_ms env)
      application_delay := (.int 750)
      gcd_base_recast_time := (.int 3300) })
    job_resource_spec := (.tuple [
      (← newJobResourceSpec {
        name := (.str "Hyperphantasia")
        change := (← PyVal.neg (.int 1)) })])
    follow_up_skills := (mkDict [
      ((.str SimConsts.DEFAULT_CONDITION), (.tuple [])),
      ((.str "1 Hyperphantasia"), (.tuple [(← get_rainbow_bright_follow_up env)]))]) })

/-- class_skills/caster/pct.py:312-330 `stone_in_yellow` -/
def stone_in_yellow (env : Env) : Py PyVal := do
  let name : PyVal := (.str "Stone in Yellow")
  return (← newSkill {
    name := name
    is_GCD := (.bool true)
    damage_spec := (← newDamageSpec { potency := (← getPotency table env name) })
    timing_spec := (← newTimingSpec {
      base_cast_time := (.int 2300)
      animation_lock := (← attr_pct_caster_tax_ms env)
      application_delay := (.int 800)
      gcd_base_recast_time := (.int 3300) })
    job_resource_spec := (.tuple [
      (← newJobResourceSpec {
        name := (.str "Hyperphantasia")
        change := (← PyVal.neg (.int 1)) })])
    follow_up_skills := (mkDict [
      ((.str SimConsts.DEFAULT_CONDITION), (.tuple [])),
      ((.str "1 Hyperphantasia"), (.tuple [(← get_rainbow_bright_follow_up env)]))]) })

/-- class_skills/caster/pct.py:332-350 `thunder_in_magenta` -/
def thunder_in_magenta (env : Env) : Py PyVal := do
  let name : PyVal := (.str "Thunder in Magenta")
  return (← newSkill {
    name := name
    is_GCD := (.bool true)
    damage_spec := (← newDamageSpec { potency := (← getPotency table env name) })
    timing_spec := (← newTimingSpec {
      base_cast_time := (.int 2300)
      animation_lock := (← attr_pct_caster_tax_ms env)
      application_delay := (.int 850)
      gcd_base_recast_time := (.int 3300) })
    job_resource_spec := (.tuple [
      (← newJobResourceSpec {
        name := (.str "Hyperphantasia")
        change := (← PyVal.neg (.int 1)) })])
    follow_up_skills := (mkDict [
      ((.str SimConsts.DEFAULT_CONDITION), (.tuple [])),
      ((.str "1 Hyperphantasia"), (.tuple [(← get_rainbow_bright_follow_up env)]))]) })

/-- class_skills/caster/pct.py:352-371 `stone_ii_in_yellow` -/
def stone_ii_in_yellow (env : Env) : Py PyVal := do
  let name : PyVal := (.str "Stone II in Yellow")
  return (← newSkill {
    name := name
    is_GCD := (.bool true)
    damage_spec := (← newDamageSpec { potency := (← getPotency table env name) })
    timing_spec := (← newTimingSpec {
      base_cast_time := (.int 2300)
      animation_lock := (← attr_pct_caster_tax_ms env)
      application_delay := (.int 800)
      gcd_base_recast_time := (.int 3300) })
    job_resource_spec := (.tuple [
      (← newJobResourceSpec {
        name := (.str "Hyperphantasia")
        change := (← PyVal.neg (.int 1)) })])
    follow_up_skills := (mkDict [
      ((.str SimConsts.DEFAULT_CONDITION), (.tuple [])),
      ((.str "1 Hyperphantasia"), (.tuple [(← get_rainbow_bright_follow_up env)]))])
    has_aoe := (.bool true) })

/-- class_skills/caster/pct.py:373-392 `thunder_ii_in_magenta` -/
def thunder_ii_in_magenta (env : Env) : Py PyVal := do
  let name : PyVal := (.str "Thunder II in Magenta")
  return (← newSkill {
    name := name
    is_GCD := (.bool true)
    damage_spec := (← newDamageSpec { potency := (← getPotency table env name) })
    timing_spec := (← newTimingSpec {
      base_cast_time := (.int 2300)
      animation_lock := (← attr_pct_caster_tax_ms env)
      application_delay := (.int 850)
      gcd_base_recast_time := (.int 3300) })
    job_resource_spec := (.tuple [
      (← newJobResourceSpec {
        name := (.str "Hyperphantasia")
        change := (← PyVal.neg (.int 1)) })])
    follow_up_skills := (mkDict [
      ((.str SimConsts.DEFAULT_CONDITION), (.tuple [])),
      ((.str "1 Hyperphantasia"), (.tuple [(← get_rainbow_bright_follow_up env)]))])
    has_aoe := (.bool true) })

/-- class_skills/caster/pct.py:394-437 `starry_muse` -/
def starry_muse (env : Env) : Py PyVal := do
  let inspiration_follow_up : PyVal := (← newFollowUp {
    skill := (← newSkill {
      name := (.str "Inspiration")
      buff_spec := (← newStatusEffectSpec {
        duration := (← PyVal.mul (.int 30) (.int 1000))
        num_uses := (.int 5)
        haste_time_reduction := (.float (25 / 100))
        skill_allowlist := (← attr_aetherhue_skills env) }) })
    delay_after_parent_application := (.int 0) })
  let name : PyVal := (.str "Starry Muse")
  return (← newSkill {
    name := name
    is_GCD := (.bool false)
    timing_spec := (← newTimingSpec {
      base_cast_time := (.int 0)
      animation_lock := (← attr_base_animation_lock env)
      application_delay := (.int 0) })
    buff_spec := (mkDict [
      ((.str SimConsts.DEFAULT_CONDITION), (← newStatusEffectSpec {
        damage_mult := (.float (105 / 100))
        duration := (← PyVal.toInt (← PyVal.mul (.float (2035 / 100)) (.int 1000)))
        is_party_effect := (.bool true) })),
      ((.str "Longest"), (← newStatusEffectSpec {
        damage_mult := (.float (105 / 100))
        duration := (← PyVal.toInt (← PyVal.mul (.float (215 / 10)) (.int 1000)))
        is_party_effect := (.bool true) }))])
    job_resource_spec := (mkDict [
      ((.str SimConsts.DEFAULT_CONDITION), (.tuple [(← newJobResourceSpec { name := (.str "Hyperphantasia"), change := (.int 5) })])),
      ((.str "Buff Only"), (.tuple []))])
    follow_up_skills := (mkDict [
      ((.str SimConsts.DEFAULT_CONDITION), (.tuple [inspiration_follow_up])),
      ((.str "Buff Only"), (.tuple []))])
    off_class_default_condition := (.str "Buff Only") })

/-- class_skills/caster/pct.py:439-458 `holy_in_white` -/
def holy_in_white (env : Env) : Py PyVal := do
  let name : PyVal := (.str "Holy in White")
  return (← newSkill {
    name := name
    is_GCD := (.bool true)
    damage_spec := (← newDamageSpec { potency := (← getPotency table env name) })
    timing_spec := (← newTimingSpec {
      base_cast_time := (.int 0)
      animation_lock := (← attr_base_animation_lock env)
      application_delay := (.int 1340) })
    job_resource_spec := (.tuple [
      (← newJobResourceSpec {
        name := (.str "Hyperphantasia")
        change := (← PyVal.neg (.int 1)) })])
    follow_up_skills := (mkDict [
      ((.str SimConsts.DEFAULT_CONDITION), (.tuple [])),
      ((.str "1 Hyperphantasia"), (.tuple [(← get_rainbow_bright_follow_up env)]))])
    has_aoe := (.bool true)
    aoe_dropoff := (.float (6 / 10)) })

/-- class_skills/caster/pct.py:460-478 `hammer_brush` -/
def hammer_brush (env : Env) : Py PyVal := do
  let name : PyVal := (.str "Hammer Brush")
  return (← newSkill {
    name := name
    is_GCD := (.bool true)
    damage_spec := (← newDamageSpec {
      potency := (← getPotency table env name)
      guaranteed_crit := (.forced .forceYes)
      guaranteed_dh := (.forced .forceYes) })
    timing_spec := (← newTimingSpec {
      base_cast_time := (.int 0)
      animation_lock := (← attr_base_animation_lock env)
      application_delay := (.int 1250) })
    has_aoe := (.bool true)
    aoe_dropoff := (.float (6 / 10)) })

/-- class_skills/caster/pct.py:480-498 `polishing_hammer` -/
def polishing_hammer (env : Env) : Py PyVal := do
  let name : PyVal := (.str "Polishing Hammer")
  return (← newSkill {
    name := name
    is_GCD := (.bool true)
    damage_spec := (← newDamageSpec {
      potency := (← getPotency table env name)
      guaranteed_crit := (.forced .forceYes)
      guaranteed_dh := (.forced .forceYes) })
    timing_spec := (← newTimingSpec {
      base_cast_time := (.int 0)
      animation_lock := (← attr_base_animation_lock env)
      application_delay := (.int 2100) })
    has_aoe := (.bool true)
    aoe_dropoff := (.float (6 / 10)) })

/-- class_skills/caster/pct.py:500-520 `comet_in_black` -/
def comet_in_black (env : Env) : Py PyVal := do
  let name : PyVal := (.str "Comet in Black")
  return (← newSkill {
    name := name
    is_GCD := (.bool true)
    damage_spec := (← newDamageSpec { potency := (← getPotency table env name) })
    timing_spec := (← newTimingSpec {
      base_cast_time := (.int 0)
      animation_lock := (← attr_base_animation_lock env)
      application_delay := (.int 1870)
      gcd_base_recast_time := (.int 3300) })
    job_resource_spec := (.tuple [
      (← newJobResourceSpec {
        name := (.str "Hyperphantasia")
        change := (← PyVal.neg (.int 1)) })])
    follow_up_skills := (mkDict [
      ((.str SimConsts.DEFAULT_CONDITION), (.tuple [])),
      ((.str "1 Hyperphantasia"), (.tuple [(← get_rainbow_bright_follow_up env)]))])
    has_aoe := (.bool true)
    aoe_dropoff := (.float (6 / 10)) })

/-- class_skills/caster/pct.py:522-547 `rainbow_drip` -/
def rainbow_drip (env : Env) : Py PyVal := do
  if decide (env.level < 92) then
    return .none
  let name : PyVal := (.str "Rainbow Drip")
  return (← newSkill {
    name := name
    is_GCD := (.bool true)
    damage_spec := (← newDamageSpec { potency := (← getPotency table env name) })
    timing_spec := (mkDict [
      ((.str SimConsts.DEFAULT_CONDITION), (← newTimingSpec {
        base_cast_time := (.int 4000)
        animation_lock := (← attr_pct_caster_tax_ms env)
        application_delay := (.int 1240)
        gcd_base_recast_time := (.int 6000) })),
      ((.str "Rainbow Bright"), (← newTimingSpec {
        base_cast_time := (.int 0)
        animation_lock := (← attr_base_animation_lock env)
        application_delay := (.int 1240)
        gcd_base_recast_time := (.int 6000) }))])
    has_aoe := (.bool true)
    aoe_dropoff := (.float (85 / 100)) })

/-- class_skills/caster/pct.py:549-565 `clawed_muse` -/
def clawed_muse (env : Env) : Py PyVal := do
  if decide (env.level < 96) then
    return .none
  let name : PyVal := (.str "Clawed Muse")
  return (← newSkill {
    name := name
    is_GCD := (.bool false)
    damage_spec := (← newDamageSpec { potency := (← getPotency table env name) })
    timing_spec := (← newTimingSpec {
      base_cast_time := (.int 0)
      animation_lock := (← attr_base_animation_lock env)
      application_delay := (.int 980) })
    has_aoe := (.bool true)
    aoe_dropoff := (.float (6 / 10)) })

/-- class_skills/caster/pct.py:567-583 `fanged_muse` -/
def fanged_muse (env : Env) : Py PyVal := do
  if decide (env.level < 96) then
    return .none
  let name : PyVal := (.str "Fanged Muse")
  return (← newSkill {
    name := name
    is_GCD := (.bool false)
    damage_spec := (← newDamageSpec { potency := (← getPotency table env name) })
    timing_spec := (← newTimingSpec {
      base_cast_time := (.int 0)
      animation_lock := (← attr_base_animation_lock env)
      application_delay := (.int 1160) })
    has_aoe := (.bool true)
    aoe_dropoff := (.float (6 / 10)) })

/-- class_skills/caster/pct.py:585-601 `retribution_of_the_madeen` -/
def retribution_of_the_madeen (env : Env) : Py PyVal := do
  if decide (env.level < 96) then
    return .none
  let name : PyVal := (.str "Retribution of the Madeen")
  return (← newSkill {
    name := name
    is_GCD := (.bool false)
    damage_spec := (← newDamageSpec { potency := (← getPotency table env name) })
    timing_spec := (← newTimingSpec {
      base_cast_time := (.int 0)
      animation_lock := (← attr_base_animation_lock env)
      application_delay := (.int 1300) })
    has_aoe := (.bool true)
    aoe_dropoff := (.float (6 / 10)) })

/-- class_skills/caster/pct.py:603-624 `star_prism` -/
def star_prism (env : Env) : Py PyVal := do
  if decide (env.level < 100) then
    return .none
  let name : PyVal := (.str "Star Prism")
  return (← newSkill {
    name := name
    is_GCD := (.bool true)
    damage_spec := (← newDamageSpec { potency := (← getPotency table env name) })
    timing_spec := (← newTimingSpec {
      base_cast_time := (.int 0)
      animation_lock := (← attr_base_animation_lock env)
      application_delay := (.int 1250) })
    job_resource_spec := (.tuple [
      (← newJobResourceSpec {
        name := (.str "Hyperphantasia")
        change := (← PyVal.neg (.int 1)) })])
    follow_up_skills := (mkDict [
      ((.str SimConsts.DEFAULT_CONDITION), (.tuple [])),
      ((.str "1 Hyperphantasia"), (.tuple [(← get_rainbow_bright_follow_up env)]))])
    has_aoe := (.bool true)
    aoe_dropoff := (.float (6 / 10)) })

/-- class_skills/caster/pct.py:630-665 `swiftcast` -/
def swiftcast (env : Env) : Py PyVal := do
  return (← newSkill {
    name := (.str "Swiftcast")
    is_GCD := (.bool false)
    timing_spec := (← attr_pct_instant_timing_spec env)
    buff_spec := (← newStatusEffectSpec {
      flat_cast_time_reduction := (.inf)
      duration := (← PyVal.mul (.int 10) (.int 1000))
      num_uses := (.int 1)
      skill_allowlist := (.tuple [
        (.str "Fire in Red"), (.str "Aero in Green"), (.str "Water in Blue"),
        (.str "Fire II in Red"), (.str "Creature Motif"), (.str "Aero II in Green"),
        (.str "Water II in Blue"), (.str "Weapon Motif"), (.str "Blizzard in Cyan"),
        (.str "Blizzard II in Cyan"), (.str "Stone in Yellow"), (.str "Thunder in Magenta"),
        (.str "Stone II in Yellow"), (.str "Thunder II in Magenta"), (.str "Landscape Motif"),
        (.str "Wing Motif"), (.str "Pom Motif"), (.str "Claw Motif"), (.str "Hammer Motif"),
        (.str "Starry Sky Motif"), (.str "Maw Motif"), (.str "Rainbow Drip")]) }) })

/-- class_skills/caster/pct.py:667-678 `tempera_coat` -/
def tempera_coat (env : Env) : Py PyVal := do
  let name : PyVal := (.str "Tempera Coat")
  return (← newSkill {
    name := name
    is_GCD := (.bool false)
    timing_spec := (← newTimingSpec {
      base_cast_time := (.int 0)
      animation_lock := (← attr_base_animation_lock env)
      application_delay := (.int 650) }) })

/-- class_skills/caster/pct.py:680-691 `smudge` -/
def smudge (env : Env) : Py PyVal := do
  let name : PyVal := (.str "Smudge")
  return (← newSkill {
    name := name
    is_GCD := (.bool false)
    timing_spec := (← newTimingSpec {
      base_cast_time := (.int 0)
      animation_lock := (← attr_base_animation_lock env)
      application_delay := (.int 650) }) })

/-- class_skills/caster/pct.py:693-705 `creature_motif` -/
def creature_motif (env : Env) : Py PyVal := do
  let name : PyVal := (.str "Creature Motif")
  return (← newSkill {
    name := name
    is_GCD := (.bool true)
    timing_spec := (← newTimingSpec {
      base_cast_time := (.int 3000)
      animation_lock := (← attr_pct_caster_tax_ms env)
      gcd_base_recast_time := (.int 4000)
      application_delay := (.int 650) }) })

/-- class_skills/caster/pct.py:707-718 `living_muse` -/
def living_muse (env : Env) : Py PyVal := do
  let name : PyVal := (.str "Living Muse")
  return (← newSkill {
    name := name
    is_GCD := (.bool false)
    timing_spec := (← newTimingSpec {
      base_cast_time := (.int 0)
      animation_lock := (← attr_base_animation_lock env)
      application_delay := (.int 650) }) })

/-- class_skills/caster/pct.py:720-732 `pom_motif` -/
def pom_motif (env : Env) : Py PyVal := do
  let name : PyVal := (.str "Pom Motif")
  return (← newSkill {
    name := name
    is_GCD := (.bool true)
    timing_spec := (← newTimingSpec {
      base_cast_time := (.int 3000)
      animation_lock := (← attr_pct_caster_tax_ms env)
      gcd_base_recast_time := (.int 4000)
      application_delay := (.int 650) }) })

/-- class_skills/caster/pct.py:734-746 `wing_motif` -/
def wing_motif (env : Env) : Py PyVal := do
  let name : PyVal := (.str "Wing Motif")
  return (← newSkill {
    name := name
    is_GCD := (.bool true)
    timing_spec := (← newTimingSpec {
      base_cast_time := (.int 3000)
      animation_lock := (← attr_pct_caster_tax_ms env)
      gcd_base_recast_time := (.int 4000)
      application_delay := (.int 650) }) })

/-- class_skills/caster/pct.py:748-760 `weapon_motif` -/
def weapon_motif (env : Env) : Py PyVal := do
  let name : PyVal := (.str "Weapon Motif")
  return (← newSkill {
    name := name
    is_GCD := (.bool true)
    timing_spec := (← newTimingSpec {
      base_cast_time := (.int 3000)
      animation_lock := (← attr_pct_caster_tax_ms env)
      gcd_base_recast_time := (.int 4000)
      application_delay := (.int 650) }) })

/-- class_skills/caster/pct.py:762-773 `steel_muse` -/
def steel_muse (env : Env) : Py PyVal := do
  let name : PyVal := (.str "Steel Muse")
  return (← newSkill {
    name := name
    is_GCD := (.bool false)
    timing_spec := (← newTimingSpec {
      base_cast_time := (.int 0)
      animation_lock := (← attr_base_animation_lock env)
      application_delay := (.int 650) }) })

/-- class_skills/caster/pct.py:775-787 `hammer_motif` -/
def hammer_motif (env : Env) : Py PyVal := do
  let name : PyVal := (.str "Hammer Motif")
  return (← newSkill {
    name := name
    is_GCD := (.bool true)
    timing_spec := (← newTimingSpec {
      base_cast_time := (.int 3000)
      animation_lock := (← attr_pct_caster_tax_ms env)
      gcd_base_recast_time := (.int 4000)
      application_delay := (.int 650) }) })

/-- class_skills/caster/pct.py:789-800 `striking_muse` -/
def striking_muse (env : Env) : Py PyVal := do
  let name : PyVal := (.str "Striking Muse")
  return (← newSkill {
    name := name
    is_GCD := (.bool false)
    timing_spec := (← newTimingSpec {
      base_cast_time := (.int 0)
      animation_lock := (← attr_base_animation_lock env)
      application_delay := (.int 650) }) })

/-- class_skills/caster/pct.py:802-813 `subtractive_palette` -/
def subtractive_palette (env : Env) : Py PyVal := do
  let name : PyVal := (.str "Subtractive Palette")
  return (← newSkill {
    name := name
    is_GCD := (.bool false)
    timing_spec := (← newTimingSpec {
      base_cast_time := (.int 0)
      animation_lock := (← attr_base_animation_lock env)
      application_delay := (.int 650) }) })

/-- class_skills/caster/pct.py:815-827 `landscape_motif` -/
def landscape_motif (env : Env) : Py PyVal := do
  let name : PyVal := (.str "Landscape Motif")
  return (← newSkill {
    name := name
    is_GCD := (.bool true)
    timing_spec := (← newTimingSpec {
      base_cast_time := (.int 3000)
      animation_lock := (← attr_pct_caster_tax_ms env)
      gcd_base_recast_time := (.int 4000)
      application_delay := (.int 650) }) })

/-- class_skills/caster/pct.py:829-840 `scenic_muse` -/
def scenic_muse (env : Env) : Py PyVal := do
  let name : PyVal := (.str "Scenic Muse")
  return (← newSkill {
    name := name
    is_GCD := (.bool false)
    timing_spec := (← newTimingSpec {
      base_cast_time := (.int 0)
      animation_lock := (← attr_base_animation_lock env)
      application_delay := (.int 650) }) })

/-- class_skills/caster/pct.py:842-854 `starry_sky_motif` -/
def starry_sky_motif (env : Env) : Py PyVal := do
  let name : PyVal := (.str "Starry Sky Motif")
  return (← newSkill {
    name := name
    is_GCD := (.bool true)
    timing_spec := (← newTimingSpec {
      base_cast_time := (.int 3000)
      animation_lock := (← attr_pct_caster_tax_ms env)
      gcd_base_recast_time := (.int 4000)
      application_delay := (.int 650) }) })

/-- class_skills/caster/pct.py:856-867 `tempera_grassa` -/
def tempera_grassa (env : Env) : Py PyVal := do
  let name : PyVal := (.str "Tempera Grassa")
  return (← newSkill {
    name := name
    is_GCD := (.bool false)
    timing_spec := (← newTimingSpec {
      base_cast_time := (.int 0)
      animation_lock := (← attr_base_animation_lock env)
      application_delay := (.int 650) }) })

/-- class_skills/caster/pct.py:869-883 `claw_motif` -/
def claw_motif (env : Env) : Py PyVal := do
  if decide (env.level < 96) then
    return .none
  let name : PyVal := (.str "Claw Motif")
  return (← newSkill {
    name := name
    is_GCD := (.bool true)
    timing_spec := (← newTimingSpec {
      base_cast_time := (.int 3000)
      animation_lock := (← attr_pct_caster_tax_ms env)
      gcd_base_recast_time := (.int 4000)
      application_delay := (.int 650) }) })

/-- class_skills/caster/pct.py:885-899 `maw_motif` -/
def maw_motif (env : Env) : Py PyVal := do
  if decide (env.level < 96) then
    return .none
  let name : PyVal := (.str "Maw Motif")
  return (← newSkill {
    name := name
    is_GCD := (.bool true)
    timing_spec := (← newTimingSpec {
      base_cast_time := (.int 3000)
      animation_lock := (← attr_pct_caster_tax_ms env)
      gcd_base_recast_time := (.int 4000)
      application_delay := (.int 650) }) })

/-- class_skills/caster/pct.py:20-899 `PctSkills`; the methods in the order of `dir`. -/
def job (env : Env) : JobClass where
  jobClass := "PCT"
  init := do
    let _ ← attr_pct_caster_tax_ms env
    let _ ← attr_base_animation_lock env
    let _ ← attr_pct_instant_timing_spec env
    let _ ← attr_aetherhue_skills env
  skillMethods := [
    aero_ii_in_green env,
    aero_in_freen env,
    auto env,
    blizzard_ii_in_cyan env,
    blizzard_in_cyan env,
    claw_motif env,
    clawed_muse env,
    comet_in_black env,
    creature_motif env,
    fanged_muse env,
    fire_ii_in_red env,
    fire_in_red env,
    hammer_brush env,
    hammer_motif env,
    hammer_stamp env,
    holy_in_white env,
    landscape_motif env,
    living_muse env,
    maw_motif env,
    mog_of_the_ages env,
    polishing_hammer env,
    pom_motif env,
    pom_muse env,
    rainbow_drip env,
    retribution_of_the_madeen env,
    scenic_muse env,
    smudge env,
    star_prism env,
    starry_muse env,
    starry_sky_motif env,
    steel_muse env,
    stone_ii_in_yellow env,
    stone_in_yellow env,
    striking_muse env,
    subtractive_palette env,
    swiftcast env,
    tempera_coat env,
    tempera_grassa env,
    thunder_ii_in_magenta env,
    thunder_in_magenta env,
    water_ii_in_blue env,
    water_in_blue env,
    weapon_motif env,
    wing_motif env,
    winged_muse env]
  resourceMethods := [hyperphantasia env]

end Ama.GameData.Pct
