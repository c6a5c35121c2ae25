import Verif.Model.GameData.Values

/-!
# WHM

Model of `simulator/game_data/class_skills/healer/whm.py` and `simulator/game_data/class_skills/healer/whm_data.py`, written by
`tools/translate.py`: one function per method.  Paths in the comments are relative to
`simulator/game_data`.
-/

namespace Ama.GameData.Whm

open PyVal

/-- class_skills/healer/whm_data.py:7-27 `ALL_DATA` -/
def table : Table := [
  ("Glare III", [
    (90, [("potency", [(.p655, .ok (.int 310))])]),
    (100, [("potency", [(.p70, .ok (.int 330)), (.p71, .ok (.int 340))])])]),
  ("Glare IV", [(100, [("potency", [(.p70, .ok (.int 640))])])]),
  ("Assize", [
    (90, [("potency", [(.p655, .ok (.int 400))])]),
    (100, [("potency", [(.p70, .ok (.int 400))])])]),
  ("Dia (dot)", [
    (90, [("potency", [(.p655, .ok (.int 65))])]),
    (100, [("potency", [(.p70, .ok (.int 70)), (.p705, .ok (.int 75))])])]),
  ("Dia", [
    (90, [("potency", [(.p655, .ok (.int 65))])]),
    (100, [("potency", [(.p70, .ok (.int 70)), (.p705, .ok (.int 75))])])]),
  ("Afflatus Misery", [
    (90, [("potency", [(.p655, .ok (.int 1240))])]),
    (100, [("potency", [(.p70, .ok (.int 1320)), (.p71, .ok (.int 1360))])])]),
  ("Holy III", [
    (90, [
      ("potency", [(.p655, .ok (.int 150))]),
      ("cast time", [(.p655, .ok (.int 2500)), (.p71, .ok (.int 1500))])]),
    (100, [
      ("potency", [(.p70, .ok (.int 150))]),
      ("cast time", [(.p70, .ok (.int 2500)), (.p71, .ok (.int 1500))])])])]

/-- class_skills/healer/whm.py:23-33 `auto` -/
def auto (_env : Env) : Py PyVal := do
  let name : PyVal := (.str "Auto")
  return (← newSkill {
    name := name
    is_GCD := (.bool false)
    timing_spec := (← autoTimingSpec)
    damage_spec := (← newDamageSpec {
      potency := (.int 90)
      damage_class := (.damageClass .auto)
      trait_damage_mult_override := (.int 1) }) })

/-- class_skills/healer/whm.py:35-45 `glare_iii` -/
def glare_iii (env : Env) : Py PyVal := do
  let name : PyVal := (.str "Glare III")
  return (← newSkill {
    name := name
    is_GCD := (.bool true)
    timing_spec := (← newTimingSpec {
      base_cast_time := (.int 1500)
      animation_lock := (.int 100)
      application_delay := (.int 1290) })
    damage_spec := (← newDamageSpec { potency := (← getPotency table env name) }) })

/-- class_skills/healer/whm.py:47-66 `glare_iv` -/
def glare_iv (env : Env) : Py PyVal := do
  if decide (env.level < 92) then
    return .none
  let name : PyVal := (.str "Glare IV")
  return (← newSkill {
    name := name
    is_GCD := (.bool true)
    timing_spec := (← newTimingSpec {
      base_cast_time := (.int 0)
      animation_lock := (.int 100)
      application_delay := (.int 850) })
    damage_spec := (mkDict [
      ((.str SimConsts.DEFAULT_CONDITION), (← newDamageSpec { potency := (← getPotency table env name) }))])
    has_aoe := (.bool true)
    aoe_dropoff := (.float (4 / 10)) })

/-- class_skills/healer/whm.py:68-79 `assize` -/
def assize (env : Env) : Py PyVal := do
  let name : PyVal := (.str "Assize")
  return (← newSkill {
    name := name
    is_GCD := (.bool false)
    timing_spec := (← newTimingSpec {
      base_cast_time := (.int 0)
      animation_lock := (.int 650)
      application_delay := (.int 670) })
    damage_spec := (← newDamageSpec { potency := (← getPotency table env name) })
    has_aoe := (.bool true) })

/-- class_skills/healer/whm.py:81-110 `dia` -/
def dia (env : Env) : Py PyVal := do
  let mut name : PyVal := .unbound
  name := (.str "Dia (dot)")
  let dia_dot_whm : PyVal := (← newSkill {
    name := name
    is_GCD := (.bool false)
    damage_spec := (← newDamageSpec {
      potency := (← getPotency table env name)
      damage_class := (.damageClass .magicalDot) }) })
  name := (.str "Dia")
  return (← newSkill {
    name := name
    is_GCD := (.bool true)
    timing_spec := (← newTimingSpec {
      base_cast_time := (.int 0)
      animation_lock := (.int 650)
      application_delay := (.int 1290) })
    damage_spec := (← newDamageSpec { potency := (← getPotency table env name) })
    follow_up_skills := (.tuple [
      (← newFollowUp {
        skill := dia_dot_whm
        delay_after_parent_application := (.int 0)
        dot_duration := (← PyVal.mul (.int 30) (.int 1000))
        snapshot_buffs_with_parent := (.bool true)
        snapshot_debuffs_with_parent := (.bool true) })]) })

/-- class_skills/healer/whm.py:112-128 `afflatus_misery` -/
def afflatus_misery (env : Env) : Py PyVal := do
  let name : PyVal := (.str "Afflatus Misery")
  return (← newSkill {
    name := name
    is_GCD := (.bool true)
    timing_spec := (← newTimingSpec {
      base_cast_time := (.int 0)
      animation_lock := (.int 650)
      application_delay := (.int 580) })
    damage_spec := (mkDict [
      ((.str SimConsts.DEFAULT_CONDITION), (← newDamageSpec { potency := (← getPotency table env name) }))])
    has_aoe := (.bool true)
    aoe_dropoff := (.float (5 / 10)) })

/-- class_skills/healer/whm.py:130-143 `holy_iii` -/
def holy_iii (env : Env) : Py PyVal := do
  let name : PyVal := (.str "Holy III")
  return (← newSkill {
    name := name
    is_GCD := (.bool true)
    timing_spec := (← newTimingSpec {
      base_cast_time := (← getSkillData table env name (.str "cast time"))
      animation_lock := (.int 100)
      application_delay := (.int 2130) })
    damage_spec := (← newDamageSpec { potency := (← getPotency table env name) })
    has_aoe := (.bool true) })

/-- class_skills/healer/whm.py:145-159 `presence_of_mind` -/
def presence_of_mind (_env : Env) : Py PyVal := do
  let name : PyVal := (.str "Presence of Mind")
  return (← newSkill {
    name := name
    is_GCD := (.bool false)
    timing_spec := (← newTimingSpec {
      base_cast_time := (.int 0)
      animation_lock := (.int 650)
      application_delay := (.int 530) })
    buff_spec := (← newStatusEffectSpec {
      duration := (← PyVal.mul (.int 15) (.int 1000))
      haste_time_reduction := (.float (20 / 100))
      auto_attack_delay_reduction := (.float (20 / 100)) }) })

/-- class_skills/healer/whm.py:161-170 `afflatus_rapture` -/
def afflatus_rapture (_env : Env) : Py PyVal := do
  let name : PyVal := (.str "Afflatus Rapture")
  return (← newSkill {
    name := name
    is_GCD := (.bool true)
    timing_spec := (← newTimingSpec {
      base_cast_time := (.int 0)
      animation_lock := (.int 650)
      application_delay := (.int 580) }) })

/-- class_skills/healer/whm.py:172-181 `afflatus_solace` -/
def afflatus_solace (_env : Env) : Py PyVal := do
  let name : PyVal := (.str "Afflatus Solace")
  return (← newSkill {
    name := name
    is_GCD := (.bool true)
    timing_spec := (← newTimingSpec {
      base_cast_time := (.int 0)
      animation_lock := (.int 650)
      application_delay := (.int 580) }) })

/-- class_skills/healer/whm.py:183-194 `medica_iii` -/
def medica_iii (env : Env) : Py PyVal := do
  if decide (env.level < 96) then
    return .none
  let name : PyVal := (.str "Medica III")
  return (← newSkill {
    name := name
    is_GCD := (.bool true)
    timing_spec := (← newTimingSpec {
      base_cast_time := (.int 2000)
      animation_lock := (.int 100)
      application_delay := (.int 0) }) })

/-- class_skills/healer/whm.py:196-201 `divine_caress` -/
def divine_caress (env : Env) : Py PyVal := do
  if decide (env.level < 100) then
    return .none
  let name : PyVal := (.str "Divine Caress")
  return (← newSkill {
    name := name
    is_GCD := (.bool false)
    timing_spec := (← instantTimingSpec) })

/-- class_skills/healer/whm.py:203-216 `swiftcast` -/
def swiftcast (_env : Env) : Py PyVal := do
  let name : PyVal := (.str "Swiftcast")
  return (← newSkill {
    name := name
    is_GCD := (.bool false)
    timing_spec := (← instantTimingSpec)
    buff_spec := (← newStatusEffectSpec {
      flat_cast_time_reduction := (.inf)
      duration := (← PyVal.mul (.int 10) (.int 1000))
      num_uses := (.int 1)
      skill_allowlist := (.tuple [(.str "Glare III"), (.str "Holy III")]) }) })

/-- class_skills/healer/whm.py:17-216 `WhmSkills`; the methods in the order of `dir`. -/
def job (env : Env) : JobClass where
  jobClass := "WHM"
  skillMethods := [
    afflatus_misery env,
    afflatus_rapture env,
    afflatus_solace env,
    assize env,
    auto env,
    dia env,
    divine_caress env,
    glare_iii env,
    glare_iv env,
    holy_iii env,
    medica_iii env,
    presence_of_mind env,
    swiftcast env]

end Ama.GameData.Whm
