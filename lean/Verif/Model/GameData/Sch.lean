import Verif.Model.GameData.Values

/-!
# SCH

Model of `simulator/game_data/class_skills/healer/sch.py` and `simulator/game_data/class_skills/healer/sch_data.py`, written by
`tools/translate.py`: one function per method.  Paths in the comments are relative to
`simulator/game_data`.
-/

namespace Ama.GameData.Sch

open PyVal

/-- class_skills/healer/sch_data.py:7-18 `ALL_DATA` -/
def table : Table := [
  ("Broil IV", [
    (90, [("potency", [(.p655, .ok (.int 295))])]),
    (100, [("potency", [(.p70, .ok (.int 310))])])]),
  ("Ruin II", [
    (90, [("potency", [(.p655, .ok (.int 220))])]),
    (100, [("potency", [(.p70, .ok (.int 220))])])]),
  ("Energy Drain", [
    (90, [("potency", [(.p655, .ok (.int 100))])]),
    (100, [("potency", [(.p70, .ok (.int 100))])])]),
  ("Art of War II", [
    (90, [("potency", [(.p655, .ok (.int 180))])]),
    (100, [("potency", [(.p70, .ok (.int 180))])])]),
  ("Chain Stratagem", [
    (90, [
      ("duration", [
        (.p655, do return (← PyVal.mul (.int 15) (.int 1000))),
        (.p70, do return (← PyVal.mul (.int 20) (.int 1000)))])]),
    (100, [("duration", [(.p70, do return (← PyVal.mul (.int 20) (.int 1000)))])])]),
  ("Biolysis (dot)", [
    (90, [("potency", [(.p655, .ok (.int 70))])]),
    (100, [("potency", [(.p70, .ok (.int 75))])])]),
  ("Baneful Impaction (dot)", [(100, [("potency", [(.p70, .ok (.int 140))])])])]

/-- class_skills/healer/sch.py:21-31 `auto` -/
def auto (_env : Env) : Py PyVal := do
  let name : PyVal := (.str "Auto")
  return (← newSkill {
    name := name
    is_GCD := (.bool false)
    timing_spec := (← autoTimingSpec)
    damage_spec := (← newDamageSpec {
      potency := (.int 90)
      damage_class := (.damageClass .auto)
      trait_damage_mult_override := (.int 1) }) })

/-- class_skills/healer/sch.py:33-43 `broil_iv` -/
def broil_iv (env : Env) : Py PyVal := do
  let name : PyVal := (.str "Broil IV")
  return (← newSkill {
    name := name
    is_GCD := (.bool true)
    timing_spec := (← newTimingSpec {
      base_cast_time := (.int 1500)
      animation_lock := (.int 100)
      application_delay := (.int 800) })
    damage_spec := (← newDamageSpec { potency := (← getPotency table env name) }) })

/-- class_skills/healer/sch.py:45-55 `ruin_ii` -/
def ruin_ii (env : Env) : Py PyVal := do
  let name : PyVal := (.str "Ruin II")
  return (← newSkill {
    name := name
    is_GCD := (.bool true)
    timing_spec := (← newTimingSpec {
      base_cast_time := (.int 0)
      animation_lock := (.int 650)
      application_delay := (.int 940) })
    damage_spec := (← newDamageSpec { potency := (← getPotency table env name) }) })

/-- class_skills/healer/sch.py:57-67 `energy_drain` -/
def energy_drain (env : Env) : Py PyVal := do
  let name : PyVal := (.str "Energy Drain")
  return (← newSkill {
    name := name
    is_GCD := (.bool false)
    timing_spec := (← newTimingSpec {
      base_cast_time := (.int 0)
      animation_lock := (.int 650)
      application_delay := (.int 1070) })
    damage_spec := (← newDamageSpec { potency := (← getPotency table env name) }) })

/-- class_skills/healer/sch.py:69-80 `art_of_war_ii` -/
def art_of_war_ii (env : Env) : Py PyVal := do
  let name : PyVal := (.str "Art of War II")
  return (← newSkill {
    name := name
    is_GCD := (.bool true)
    timing_spec := (← newTimingSpec {
      base_cast_time := (.int 0)
      animation_lock := (.int 650)
      application_delay := (.int 670) })
    damage_spec := (← newDamageSpec { potency := (← getPotency table env name) })
    has_aoe := (.bool true) })

/-- class_skills/healer/sch.py:82-96 `add_chain_stratagem` -/
def add_chain_stratagem (env : Env) : Py PyVal := do
  let name : PyVal := (.str "Chain Stratagem")
  return (← newSkill {
    name := name
    is_GCD := (.bool false)
    timing_spec := (← newTimingSpec {
      base_cast_time := (.int 0)
      animation_lock := (.int 650)
      application_delay := (.int 800) })
    debuff_spec := (← newStatusEffectSpec {
      duration := (← getSkillData table env name (.str "duration"))
      crit_rate_add := (.float (10 / 100))
      is_party_effect := (.bool true) }) })

/-- class_skills/healer/sch.py:98-126 `biolysis` -/
def biolysis (env : Env) : Py PyVal := do
  let mut name : PyVal := .unbound
  name := (.str "Biolysis (dot)")
  let biolysis_dot : PyVal := (← newSkill {
    name := name
    is_GCD := (.bool false)
    damage_spec := (← newDamageSpec {
      potency := (← getPotency table env name)
      damage_class := (.damageClass .magicalDot) }) })
  name := (.str "Biolysis")
  return (← newSkill {
    name := name
    is_GCD := (.bool true)
    timing_spec := (← newTimingSpec {
      base_cast_time := (.int 0)
      animation_lock := (.int 650)
      application_delay := (.int 670) })
    follow_up_skills := (.tuple [
      (← newFollowUp {
        skill := biolysis_dot
        delay_after_parent_application := (.int 0)
        dot_duration := (← PyVal.mul (.int 30) (.int 1000))
        snapshot_buffs_with_parent := (.bool true)
        snapshot_debuffs_with_parent := (.bool true) })]) })

/-- class_skills/healer/sch.py:128-160 `baneful_impaction` -/
def baneful_impaction (env : Env) : Py PyVal := do
  let mut name : PyVal := .unbound
  if decide (env.level < 92) then
    return .none
  name := (.str "Baneful Impaction (dot)")
  let baneful_dot : PyVal := (← newSkill {
    name := name
    is_GCD := (.bool false)
    damage_spec := (← newDamageSpec {
      potency := (← getPotency table env name)
      damage_class := (.damageClass .magicalDot) }) })
  name := (.str "Baneful Impaction")
  return (← newSkill {
    name := name
    is_GCD := (.bool true)
    timing_spec := (← newTimingSpec {
      base_cast_time := (.int 0)
      animation_lock := (.int 650)
      application_delay := (.int 1290) })
    follow_up_skills := (.tuple [
      (← newFollowUp {
        skill := baneful_dot
        delay_after_parent_application := (.int 0)
        dot_duration := (← PyVal.mul (.int 15) (.int 1000))
        snapshot_buffs_with_parent := (.bool true)
        snapshot_debuffs_with_parent := (.bool true) })])
    has_aoe := (.bool true) })

/-- class_skills/healer/sch.py:162-175 `swiftcast` -/
def swiftcast (_env : Env) : Py PyVal := do
  let name : PyVal := (.str "Swiftcast")
  return (← newSkill {
    name := name
    is_GCD := (.bool false)
    timing_spec := (← instantTimingSpec)
    buff_spec := (← newStatusEffectSpec {
      flat_cast_time_reduction := (.inf)
      duration := (← PyVal.mul (.int 10) (.int 1000))
      num_uses := (.int 1)
      skill_allowlist := (.tuple [(.str "Glare III"), (.str "Holy III")]) }) })

/-- class_skills/healer/sch.py:181-185 `dissipation` -/
def dissipation (_env : Env) : Py PyVal := do
  return (← newSkill {
    name := (.str "Dissipation")
    is_GCD := (.bool false)
    timing_spec := (← instantTimingSpec) })

/-- class_skills/healer/sch.py:187-191 `aetherflow` -/
def aetherflow (_env : Env) : Py PyVal := do
  return (← newSkill {
    name := (.str "Aetherflow")
    is_GCD := (.bool false)
    timing_spec := (← instantTimingSpec) })

/-- class_skills/healer/sch.py:193-204 `concitation` -/
def concitation (env : Env) : Py PyVal := do
  if decide (env.level < 96) then
    return .none
  let name : PyVal := (.str "Concitation")
  return (← newSkill {
    name := name
    is_GCD := (.bool true)
    timing_spec := (← newTimingSpec {
      base_cast_time := (.int 2000)
      animation_lock := (.int 650)
      application_delay := (.int 670) }) })

/-- class_skills/healer/sch.py:206-217 `manifestation` -/
def manifestation (env : Env) : Py PyVal := do
  if decide (env.level < 100) then
    return .none
  let name : PyVal := (.str "Manifestation")
  return (← newSkill {
    name := name
    is_GCD := (.bool true)
    timing_spec := (← newTimingSpec {
      base_cast_time := (.int 0)
      animation_lock := (.int 650)
      application_delay := (.int 670) }) })

/-- class_skills/healer/sch.py:219-230 `accession` -/
def accession (env : Env) : Py PyVal := do
  if decide (env.level < 100) then
    return .none
  let name : PyVal := (.str "Accession")
  return (← newSkill {
    name := name
    is_GCD := (.bool true)
    timing_spec := (← newTimingSpec {
      base_cast_time := (.int 0)
      animation_lock := (.int 650)
      application_delay := (.int 670) }) })

/-- class_skills/healer/sch.py:16-230 `SchSkills`; the methods in the order of `dir`. -/
def job (env : Env) : JobClass where
  jobClass := "SCH"
  skillMethods := [
    accession env,
    add_chain_stratagem env,
    aetherflow env,
    art_of_war_ii env,
    auto env,
    baneful_impaction env,
    biolysis env,
    broil_iv env,
    concitation env,
    dissipation env,
    energy_drain env,
    manifestation env,
    ruin_ii env,
    swiftcast env]

end Ama.GameData.Sch
