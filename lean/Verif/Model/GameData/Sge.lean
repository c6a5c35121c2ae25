import Verif.Model.GameData.Values

/-!
# SGE

Model of `simulator/game_data/class_skills/healer/sge.py` and `simulator/game_data/class_skills/healer/sge_data.py`, written by
`tools/translate.py`: one function per method.  Paths in the comments are relative to
`simulator/game_data`.
-/

namespace Ama.GameData.Sge

open PyVal

/-- class_skills/healer/sge_data.py:7-27 `ALL_DATA` -/
def table : Table := [
  ("Dosis III", [
    (90, [("potency", [(.p655, .ok (.int 330))])]),
    (100, [("potency", [(.p70, .ok (.int 360)), (.p71, .ok (.int 370))])])]),
  ("Phlegma III", [
    (90, [("potency", [(.p655, .ok (.int 600))])]),
    (100, [("potency", [(.p70, .ok (.int 600))])])]),
  ("Toxikon II", [
    (90, [("potency", [(.p655, .ok (.int 330))])]),
    (100, [("potency", [(.p70, .ok (.int 360)), (.p71, .ok (.int 370))])])]),
  ("Dyskrasia II", [
    (90, [("potency", [(.p655, .ok (.int 170))])]),
    (100, [("potency", [(.p70, .ok (.int 170))])])]),
  ("Pneuma", [
    (90, [("potency", [(.p655, .ok (.int 330))])]),
    (100, [("potency", [(.p70, .ok (.int 360)), (.p71, .ok (.int 370))])])]),
  ("Eukrasian Dosis III (dot)", [
    (90, [("potency", [(.p655, .ok (.int 75))]), ("potency_dysk", [(.p70, .ok (.int 40))])]),
    (100, [("potency", [(.p70, .ok (.int 75))]), ("potency_dysk", [(.p70, .ok (.int 40))])])]),
  ("Psyche", [(100, [("potency", [(.p70, .ok (.int 600))])])])]

/-- class_skills/healer/sge.py:23-33 `auto` -/
def auto (_env : Env) : Py PyVal := do
  let name : PyVal := (.str "Auto")
  return (← newSkill {
    name := name
    is_GCD := (.bool false)
    timing_spec := (← autoTimingSpec)
    damage_spec := (← newDamageSpec {
      potency := (.int 90)
      damage_class := (.damageClass .auto)
      trait_damage_mult_override := (.int 1) }) })

/-- class_skills/healer/sge.py:35-45 `dosis_iii` -/
def dosis_iii (env : Env) : Py PyVal := do
  let name : PyVal := (.str "Dosis III")
  return (← newSkill {
    name := name
    is_GCD := (.bool true)
    timing_spec := (← newTimingSpec {
      base_cast_time := (.int 1500)
      animation_lock := (.int 100)
      application_delay := (.int 670) })
    damage_spec := (← newDamageSpec { potency := (← getPotency table env name) }) })

/-- class_skills/healer/sge.py:47-63 `phlegma_iii` -/
def phlegma_iii (env : Env) : Py PyVal := do
  let name : PyVal := (.str "Phlegma III")
  return (← newSkill {
    name := name
    is_GCD := (.bool true)
    timing_spec := (← newTimingSpec {
      base_cast_time := (.int 0)
      animation_lock := (.int 650)
      application_delay := (.int 670) })
    damage_spec := (mkDict [
      ((.str SimConsts.DEFAULT_CONDITION), (← newDamageSpec { potency := (← getPotency table env name) }))])
    has_aoe := (.bool true)
    aoe_dropoff := (.float (5 / 10)) })

/-- class_skills/healer/sge.py:65-81 `toxikon_ii` -/
def toxikon_ii (env : Env) : Py PyVal := do
  let name : PyVal := (.str "Toxikon II")
  return (← newSkill {
    name := name
    is_GCD := (.bool true)
    timing_spec := (← newTimingSpec {
      base_cast_time := (.int 0)
      animation_lock := (.int 650)
      application_delay := (.int 1200) })
    damage_spec := (mkDict [
      ((.str SimConsts.DEFAULT_CONDITION), (← newDamageSpec { potency := (← getPotency table env name) }))])
    has_aoe := (.bool true)
    aoe_dropoff := (.float (5 / 10)) })

/-- class_skills/healer/sge.py:83-94 `dyskrasia_ii` -/
def dyskrasia_ii (env : Env) : Py PyVal := do
  let name : PyVal := (.str "Dyskrasia II")
  return (← newSkill {
    name := name
    is_GCD := (.bool true)
    timing_spec := (← newTimingSpec {
      base_cast_time := (.int 0)
      animation_lock := (.int 650)
      application_delay := (.int 760) })
    damage_spec := (← newDamageSpec { potency := (← getPotency table env name) })
    has_aoe := (.bool true) })

/-- class_skills/healer/sge.py:96-112 `pneuma` -/
def pneuma (env : Env) : Py PyVal := do
  let name : PyVal := (.str "Pneuma")
  return (← newSkill {
    name := name
    is_GCD := (.bool true)
    timing_spec := (← newTimingSpec {
      base_cast_time := (.int 1500)
      animation_lock := (.int 100)
      application_delay := (.int 580) })
    damage_spec := (mkDict [
      ((.str SimConsts.DEFAULT_CONDITION), (← newDamageSpec { potency := (← getPotency table env name) }))])
    has_aoe := (.bool true)
    aoe_dropoff := (.float (4 / 10)) })

/-- class_skills/healer/sge.py:114-125 `eukrasia` -/
def eukrasia (_env : Env) : Py PyVal := do
  let name : PyVal := (.str "Eukrasia")
  return (← newSkill {
    name := name
    is_GCD := (.bool true)
    timing_spec := (← newTimingSpec {
      base_cast_time := (.int 1000)
      affected_by_speed_stat := (.bool false)
      affected_by_haste_buffs := (.bool false) }) })

/-- class_skills/healer/sge.py:127-157 `eukrasia_dosis_iii` -/
def eukrasia_dosis_iii (env : Env) : Py PyVal := do
  let mut name : PyVal := .unbound
  name := (.str "Eukrasian Dosis III (dot)")
  let e_dosis_iii : PyVal := (← newSkill {
    name := name
    damage_spec := (← newDamageSpec {
      potency := (← getPotency table env name)
      damage_class := (.damageClass .magicalDot) }) })
  name := (.str "Eukrasian Dosis III")
  return (← newSkill {
    name := name
    is_GCD := (.bool true)
    timing_spec := (← newTimingSpec {
      base_cast_time := (.int 0)
      animation_lock := (.int 650)
      application_delay := (.int 760)
      gcd_base_recast_time := (.int 1500) })
    follow_up_skills := (.tuple [
      (← newFollowUp {
        skill := e_dosis_iii
        delay_after_parent_application := (.int 0)
        dot_duration := (← PyVal.mul (.int 30) (.int 1000))
        snapshot_buffs_with_parent := (.bool true)
        snapshot_debuffs_with_parent := (.bool true) })]) })

/-- class_skills/healer/sge.py:159-192 `eukrasian_dyskrasia` -/
def eukrasian_dyskrasia (env : Env) : Py PyVal := do
  let mut name : PyVal := .unbound
  if env.lt .p70 then
    return .none
  name := (.str "Eukrasian Dosis III (dot)")
  let e_dysk : PyVal := (← newSkill {
    name := name
    damage_spec := (← newDamageSpec {
      potency := (← getSkillData table env name (.str "potency_dysk"))
      damage_class := (.damageClass .magicalDot) }) })
  name := (.str "Eukrasian Dyskrasia")
  return (← newSkill {
    name := name
    is_GCD := (.bool true)
    timing_spec := (← newTimingSpec {
      base_cast_time := (.int 0)
      animation_lock := (.int 650)
      application_delay := (.int 1030)
      gcd_base_recast_time := (.int 1500) })
    follow_up_skills := (.tuple [
      (← newFollowUp {
        skill := e_dysk
        delay_after_parent_application := (.int 0)
        dot_duration := (← PyVal.mul (.int 30) (.int 1000))
        snapshot_buffs_with_parent := (.bool true)
        snapshot_debuffs_with_parent := (.bool true) })])
    has_aoe := (.bool true) })

/-- class_skills/healer/sge.py:194-212 `psyche` -/
def psyche (env : Env) : Py PyVal := do
  if (env.lt .p70 || decide (env.level < 92)) then
    return .none
  let name : PyVal := (.str "Psyche")
  return (← newSkill {
    name := name
    is_GCD := (.bool false)
    timing_spec := (← newTimingSpec {
      base_cast_time := (.int 0)
      animation_lock := (.int 100)
      application_delay := (.int 1100) })
    damage_spec := (mkDict [
      ((.str SimConsts.DEFAULT_CONDITION), (← newDamageSpec { potency := (← getPotency table env name) }))])
    has_aoe := (.bool true)
    aoe_dropoff := (.float (5 / 10)) })

/-- class_skills/healer/sge.py:214-227 `swiftcast` -/
def swiftcast (_env : Env) : Py PyVal := do
  let name : PyVal := (.str "Swiftcast")
  return (← newSkill {
    name := name
    is_GCD := (.bool false)
    timing_spec := (← instantTimingSpec)
    buff_spec := (← newStatusEffectSpec {
      flat_cast_time_reduction := (.inf)
      duration := (← PyVal.mul (.int 10) (.int 1000))
      num_uses := (.int 1)
      skill_allowlist := (.tuple [(.str "Glare III"), (.str "Holy III")]) }) })

/-- class_skills/healer/sge.py:17-227 `SgeSkills`; the methods in the order of `dir`. -/
def job (env : Env) : JobClass where
  jobClass := "SGE"
  skillMethods := [
    auto env,
    dosis_iii env,
    dyskrasia_ii env,
    eukrasia env,
    eukrasia_dosis_iii env,
    eukrasian_dyskrasia env,
    phlegma_iii env,
    pneuma env,
    psyche env,
    swiftcast env,
    toxikon_ii env]

end Ama.GameData.Sge
