import Verif.Model.GameData.Values

/-!
# VPR

Model of `simulator/game_data/class_skills/melee/vpr.py` and `simulator/game_data/class_skills/melee/vpr_data.py`, written by
`tools/translate.py`: one function per method.  Paths in the comments are relative to
`simulator/game_data`.
-/

namespace Ama.GameData.Vpr

open PyVal

/-- class_skills/melee/vpr_data.py:9-545 `ALL_DATA` -/
def table : Table := [
  ("Combo Base", [
    (90, [
      ("potency_no_venom", [(.p70, .ok (.int 120)), (.p705, .ok (.int 160))]),
      ("potency_venom", [(.p70, .ok (.int 220)), (.p705, .ok (.int 260))])]),
    (100, [
      ("potency_no_venom", [(.p70, .ok (.int 120)), (.p705, .ok (.int 160))]),
      ("potency_venom", [(.p70, .ok (.int 220)), (.p705, .ok (.int 260))])])]),
  ("Steel Fangs", [
    (90, [
      ("damage_spec", [
        (.p70, do return (← newDamageSpec { potency := (.int 200) })),
        (.p705, do return (mkDict [
          ((.str SimConsts.DEFAULT_CONDITION), (← newDamageSpec { potency := (.int 200) })),
          ((.str "Honed Steel"), (← newDamageSpec { potency := (.int 300) }))]))])]),
    (100, [
      ("damage_spec", [
        (.p70, do return (← newDamageSpec { potency := (.int 200) })),
        (.p705, do return (mkDict [
          ((.str SimConsts.DEFAULT_CONDITION), (← newDamageSpec { potency := (.int 200) })),
          ((.str "Honed Steel"), (← newDamageSpec { potency := (.int 300) }))]))])])]),
  ("Hunter's Instinct", [
    (90, [
      ("duration", [(.p70, do return (← PyVal.toInt (← PyVal.mul (.int 40) (.int 1000))))])]),
    (100, [
      ("duration", [(.p70, do return (← PyVal.toInt (← PyVal.mul (.int 40) (.int 1000))))])])]),
  ("Hunter's Sting", [
    (90, [("potency", [(.p70, .ok (.int 260)), (.p705, .ok (.int 300))])]),
    (100, [("potency", [(.p70, .ok (.int 260)), (.p705, .ok (.int 300))])])]),
  ("Noxious Gnash", [
    (90, [
      ("duration", [(.p70, do return (← PyVal.mul (.int 20) (.int 1000)))]),
      ("max_duration", [(.p70, do return (← PyVal.mul (.int 40) (.int 1000)))])]),
    (100, [
      ("duration", [(.p70, do return (← PyVal.mul (.int 20) (.int 1000)))]),
      ("max_duration", [(.p70, do return (← PyVal.mul (.int 40) (.int 1000)))])])]),
  ("Dread Fangs", [
    (90, [("potency", [(.p70, .ok (.int 140))])]),
    (100, [("potency", [(.p70, .ok (.int 140))])])]),
  ("Reaving Fangs", [
    (90, [
      ("potency", [(.p705, .ok (.int 200))]),
      ("potency_honed_reavers", [(.p705, .ok (.int 300))])]),
    (100, [
      ("potency", [(.p705, .ok (.int 200))]),
      ("potency_honed_reavers", [(.p705, .ok (.int 300))])])]),
  ("Writhing Snap", [
    (90, [("potency", [(.p70, .ok (.int 200))])]),
    (100, [("potency", [(.p70, .ok (.int 200))])])]),
  ("Swiftscaled", [
    (90, [("duration", [(.p70, do return (← PyVal.mul (.int 40) (.int 1000)))])]),
    (100, [("duration", [(.p70, do return (← PyVal.mul (.int 40) (.int 1000)))])])]),
  ("Swiftskin's Sting", [
    (90, [("potency", [(.p70, .ok (.int 260)), (.p705, .ok (.int 300))])]),
    (100, [("potency", [(.p70, .ok (.int 260)), (.p705, .ok (.int 300))])])]),
  ("Steel Maw", [
    (90, [
      ("damage_spec", [
        (.p70, do return (← newDamageSpec { potency := (.int 100) })),
        (.p705, do return (mkDict [
          ((.str SimConsts.DEFAULT_CONDITION), (← newDamageSpec { potency := (.int 100) })),
          ((.str "Honed Steel"), (← newDamageSpec { potency := (.int 120) }))]))])]),
    (100, [
      ("damage_spec", [
        (.p70, do return (← newDamageSpec { potency := (.int 100) })),
        (.p705, do return (mkDict [
          ((.str SimConsts.DEFAULT_CONDITION), (← newDamageSpec { potency := (.int 100) })),
          ((.str "Honed Steel"), (← newDamageSpec { potency := (.int 120) }))]))])])]),
  ("Hindstung Venom", [
    (90, [
      ("duration", [
        (.p70, do return (← PyVal.mul (.int 40) (.int 1000))),
        (.p705, do return (← PyVal.mul (.int 60) (.int 1000)))])]),
    (100, [
      ("duration", [
        (.p70, do return (← PyVal.mul (.int 40) (.int 1000))),
        (.p705, do return (← PyVal.mul (.int 60) (.int 1000)))])])]),
  ("Flanksting Strike", [
    (90, [
      ("potency", [(.p70, .ok (.int 360)), (.p705, .ok (.int 400))]),
      ("potency_no_pos", [(.p70, .ok (.int 300)), (.p705, .ok (.int 340))]),
      ("potency_venom", [(.p70, .ok (.int 460)), (.p705, .ok (.int 500))]),
      ("potency_no_pos_venom", [(.p70, .ok (.int 400)), (.p705, .ok (.int 440))])]),
    (100, [
      ("potency", [(.p70, .ok (.int 360)), (.p705, .ok (.int 400))]),
      ("potency_no_pos", [(.p70, .ok (.int 300)), (.p705, .ok (.int 340))]),
      ("potency_venom", [(.p70, .ok (.int 460)), (.p705, .ok (.int 500))]),
      ("potency_no_pos_venom", [(.p70, .ok (.int 400)), (.p705, .ok (.int 440))])])]),
  ("Hindsbane Venom", [
    (90, [
      ("duration", [
        (.p70, do return (← PyVal.mul (.int 40) (.int 1000))),
        (.p705, do return (← PyVal.mul (.int 60) (.int 1000)))])]),
    (100, [
      ("duration", [
        (.p70, do return (← PyVal.mul (.int 40) (.int 1000))),
        (.p705, do return (← PyVal.mul (.int 60) (.int 1000)))])])]),
  ("Flanksbane Fang", [
    (90, [
      ("potency", [(.p70, .ok (.int 360)), (.p705, .ok (.int 400))]),
      ("potency_no_pos", [(.p70, .ok (.int 300)), (.p705, .ok (.int 340))]),
      ("potency_venom", [(.p70, .ok (.int 460)), (.p705, .ok (.int 500))]),
      ("potency_no_pos_venom", [(.p70, .ok (.int 400)), (.p705, .ok (.int 440))])]),
    (100, [
      ("potency", [(.p70, .ok (.int 360)), (.p705, .ok (.int 400))]),
      ("potency_no_pos", [(.p70, .ok (.int 300)), (.p705, .ok (.int 340))]),
      ("potency_venom", [(.p70, .ok (.int 460)), (.p705, .ok (.int 500))]),
      ("potency_no_pos_venom", [(.p70, .ok (.int 400)), (.p705, .ok (.int 440))])])]),
  ("Flanksbane Venom", [
    (90, [
      ("duration", [
        (.p70, do return (← PyVal.mul (.int 40) (.int 1000))),
        (.p705, do return (← PyVal.mul (.int 60) (.int 1000)))])]),
    (100, [
      ("duration", [
        (.p70, do return (← PyVal.mul (.int 40) (.int 1000))),
        (.p705, do return (← PyVal.mul (.int 60) (.int 1000)))])])]),
  ("Hindsting Strike", [
    (90, [
      ("potency", [(.p70, .ok (.int 360)), (.p705, .ok (.int 400))]),
      ("potency_no_pos", [(.p70, .ok (.int 300)), (.p705, .ok (.int 340))]),
      ("potency_venom", [(.p70, .ok (.int 460)), (.p705, .ok (.int 500))]),
      ("potency_no_pos_venom", [(.p70, .ok (.int 400)), (.p705, .ok (.int 440))])]),
    (100, [
      ("potency", [(.p70, .ok (.int 360)), (.p705, .ok (.int 400))]),
      ("potency_no_pos", [(.p70, .ok (.int 300)), (.p705, .ok (.int 340))]),
      ("potency_venom", [(.p70, .ok (.int 460)), (.p705, .ok (.int 500))]),
      ("potency_no_pos_venom", [(.p70, .ok (.int 400)), (.p705, .ok (.int 440))])])]),
  ("Flankstung Venom", [
    (90, [
      ("duration", [
        (.p70, do return (← PyVal.mul (.int 40) (.int 1000))),
        (.p705, do return (← PyVal.mul (.int 60) (.int 1000)))])]),
    (100, [
      ("duration", [
        (.p70, do return (← PyVal.mul (.int 40) (.int 1000))),
        (.p705, do return (← PyVal.mul (.int 60) (.int 1000)))])])]),
  ("Hindsbane Fang", [
    (90, [
      ("potency", [(.p70, .ok (.int 360)), (.p705, .ok (.int 400))]),
      ("potency_no_pos", [(.p70, .ok (.int 300)), (.p705, .ok (.int 340))]),
      ("potency_venom", [(.p70, .ok (.int 460)), (.p705, .ok (.int 500))]),
      ("potency_no_pos_venom", [(.p70, .ok (.int 400)), (.p705, .ok (.int 440))])]),
    (100, [
      ("potency", [(.p70, .ok (.int 360)), (.p705, .ok (.int 400))]),
      ("potency_no_pos", [(.p70, .ok (.int 300)), (.p705, .ok (.int 340))]),
      ("potency_venom", [(.p70, .ok (.int 460)), (.p705, .ok (.int 500))]),
      ("potency_no_pos_venom", [(.p70, .ok (.int 400)), (.p705, .ok (.int 440))])])]),
  ("Dread Maw", [
    (90, [("potency", [(.p70, .ok (.int 80))])]),
    (100, [("potency", [(.p70, .ok (.int 80))])])]),
  ("Reaving Maw", [
    (90, [
      ("potency", [(.p705, .ok (.int 100))]),
      ("potency_honed_reavers", [(.p705, .ok (.int 120))])]),
    (100, [
      ("potency", [(.p705, .ok (.int 100))]),
      ("potency_honed_reavers", [(.p705, .ok (.int 120))])])]),
  ("Hunter's Bite", [
    (90, [("potency", [(.p70, .ok (.int 120)), (.p705, .ok (.int 130))])]),
    (100, [("potency", [(.p70, .ok (.int 120)), (.p705, .ok (.int 130))])])]),
  ("Swiftskin's Bite", [
    (90, [("potency", [(.p70, .ok (.int 120)), (.p705, .ok (.int 130))])]),
    (100, [("potency", [(.p70, .ok (.int 120)), (.p705, .ok (.int 130))])])]),
  ("Grimskin's Venom", [
    (90, [
      ("duration", [
        (.p70, do return (← PyVal.mul (.int 40) (.int 1000))),
        (.p705, do return (← PyVal.mul (.int 60) (.int 1000)))])]),
    (100, [
      ("duration", [
        (.p70, do return (← PyVal.mul (.int 40) (.int 1000))),
        (.p705, do return (← PyVal.mul (.int 60) (.int 1000)))])])]),
  ("Jagged Maw", [
    (90, [("potency", [(.p70, .ok (.int 140))]), ("potency_venom", [(.p70, .ok (.int 160))])]),
    (100, [
      ("potency", [(.p70, .ok (.int 140))]),
      ("potency_venom", [(.p70, .ok (.int 160))])])]),
  ("Grimhunter's Venom", [
    (90, [
      ("duration", [
        (.p70, do return (← PyVal.mul (.int 40) (.int 1000))),
        (.p705, do return (← PyVal.mul (.int 60) (.int 1000)))])]),
    (100, [
      ("duration", [
        (.p70, do return (← PyVal.mul (.int 40) (.int 1000))),
        (.p705, do return (← PyVal.mul (.int 60) (.int 1000)))])])]),
  ("Bloodied Maw", [
    (90, [("potency", [(.p70, .ok (.int 140))]), ("potency_venom", [(.p70, .ok (.int 160))])]),
    (100, [
      ("potency", [(.p70, .ok (.int 140))]),
      ("potency_venom", [(.p70, .ok (.int 160))])])]),
  ("Death Rattle", [
    (90, [("potency", [(.p70, .ok (.int 250)), (.p705, .ok (.int 280))])]),
    (100, [("potency", [(.p70, .ok (.int 250)), (.p705, .ok (.int 280))])])]),
  ("Last Lash", [
    (90, [("potency", [(.p70, .ok (.int 100))])]),
    (100, [("potency", [(.p70, .ok (.int 100))])])]),
  ("Dreadwinder", [
    (90, [("potency", [(.p70, .ok (.int 450))])]),
    (100, [("potency", [(.p70, .ok (.int 450))])])]),
  ("Vicewinder", [
    (90, [("potency", [(.p705, .ok (.int 500))])]),
    (100, [("potency", [(.p705, .ok (.int 500))])])]),
  ("Hunter's Venom", [
    (90, [("duration", [(.p70, do return (← PyVal.mul (.int 30) (.int 1000)))])]),
    (100, [("duration", [(.p70, do return (← PyVal.mul (.int 30) (.int 1000)))])])]),
  ("Hunter's Coil", [
    (90, [
      ("potency", [(.p70, .ok (.int 550)), (.p705, .ok (.int 620))]),
      ("potency_no_pos", [(.p70, .ok (.int 500)), (.p705, .ok (.int 570))])]),
    (100, [
      ("potency", [(.p70, .ok (.int 550)), (.p705, .ok (.int 620))]),
      ("potency_no_pos", [(.p70, .ok (.int 500)), (.p705, .ok (.int 570))])])]),
  ("Swiftskin's Venom", [
    (90, [("duration", [(.p70, do return (← PyVal.mul (.int 30) (.int 1000)))])]),
    (100, [("duration", [(.p70, do return (← PyVal.mul (.int 30) (.int 1000)))])])]),
  ("Swiftskin's Coil", [
    (90, [
      ("potency", [(.p70, .ok (.int 550)), (.p705, .ok (.int 620))]),
      ("potency_no_pos", [(.p70, .ok (.int 500)), (.p705, .ok (.int 570))])]),
    (100, [
      ("potency", [(.p70, .ok (.int 550)), (.p705, .ok (.int 620))]),
      ("potency_no_pos", [(.p70, .ok (.int 500)), (.p705, .ok (.int 570))])])]),
  ("Pit of Dread", [
    (90, [("potency", [(.p70, .ok (.int 200))])]),
    (100, [("potency", [(.p70, .ok (.int 200))])])]),
  ("Vicepit", [
    (90, [("potency", [(.p705, .ok (.int 220))])]),
    (100, [("potency", [(.p705, .ok (.int 220))])])]),
  ("Fellhunter's Venom", [
    (90, [("duration", [(.p70, do return (← PyVal.mul (.int 30) (.int 1000)))])]),
    (100, [("duration", [(.p70, do return (← PyVal.mul (.int 30) (.int 1000)))])])]),
  ("Hunter's Den", [
    (90, [("potency", [(.p70, .ok (.int 250)), (.p705, .ok (.int 280))])]),
    (100, [("potency", [(.p70, .ok (.int 250)), (.p705, .ok (.int 280))])])]),
  ("Fellskin's Venom", [
    (90, [("duration", [(.p70, do return (← PyVal.mul (.int 30) (.int 1000)))])]),
    (100, [("duration", [(.p70, do return (← PyVal.mul (.int 30) (.int 1000)))])])]),
  ("Swiftskin's Den", [
    (90, [("potency", [(.p70, .ok (.int 250)), (.p705, .ok (.int 280))])]),
    (100, [("potency", [(.p70, .ok (.int 250)), (.p705, .ok (.int 280))])])]),
  ("Twinfang Bite", [
    (90, [
      ("potency", [(.p70, .ok (.int 100)), (.p705, .ok (.int 120))]),
      ("potency_venom", [(.p70, .ok (.int 150)), (.p705, .ok (.int 170))])]),
    (100, [
      ("potency", [(.p70, .ok (.int 100)), (.p705, .ok (.int 120))]),
      ("potency_venom", [(.p70, .ok (.int 150)), (.p705, .ok (.int 170))])])]),
  ("Twinblood Bite", [
    (90, [
      ("potency", [(.p70, .ok (.int 100)), (.p705, .ok (.int 120))]),
      ("potency_venom", [(.p70, .ok (.int 150)), (.p705, .ok (.int 170))])]),
    (100, [
      ("potency", [(.p70, .ok (.int 100)), (.p705, .ok (.int 120))]),
      ("potency_venom", [(.p70, .ok (.int 150)), (.p705, .ok (.int 170))])])]),
  ("Twinfang Thresh", [
    (90, [("potency", [(.p70, .ok (.int 50))]), ("potency_venom", [(.p70, .ok (.int 80))])]),
    (100, [("potency", [(.p70, .ok (.int 50))]), ("potency_venom", [(.p70, .ok (.int 80))])])]),
  ("Twinblood Thresh", [
    (90, [("potency", [(.p70, .ok (.int 50))]), ("potency_venom", [(.p70, .ok (.int 80))])]),
    (100, [("potency", [(.p70, .ok (.int 50))]), ("potency_venom", [(.p70, .ok (.int 80))])])]),
  ("Poised for Twinfang", [
    (90, [("duration", [(.p70, do return (← PyVal.mul (.int 60) (.int 1000)))])]),
    (100, [("duration", [(.p70, do return (← PyVal.mul (.int 60) (.int 1000)))])])]),
  ("Uncoiled Fury", [
    (90, [("potency", [(.p70, .ok (.int 600)), (.p705, .ok (.int 680))])]),
    (100, [("potency", [(.p70, .ok (.int 600)), (.p705, .ok (.int 680))])])]),
  ("Reawaken", [
    (90, [("potency", [(.p70, .ok (.int 700)), (.p705, .ok (.int 750))])]),
    (100, [("potency", [(.p70, .ok (.int 700)), (.p705, .ok (.int 750))])])]),
  ("First Generation", [
    (90, [
      ("potency", [(.p70, .ok (.int 600)), (.p705, .ok (.int 680))]),
      ("potency_no_combo", [(.p70, .ok (.int 400)), (.p705, .ok (.int 480))])]),
    (100, [
      ("potency", [(.p70, .ok (.int 600)), (.p705, .ok (.int 680))]),
      ("potency_no_combo", [(.p70, .ok (.int 400)), (.p705, .ok (.int 480))])])]),
  ("Second Generation", [
    (90, [
      ("potency", [(.p70, .ok (.int 600)), (.p705, .ok (.int 680))]),
      ("potency_no_combo", [(.p70, .ok (.int 400)), (.p705, .ok (.int 480))])]),
    (100, [
      ("potency", [(.p70, .ok (.int 600)), (.p705, .ok (.int 680))]),
      ("potency_no_combo", [(.p70, .ok (.int 400)), (.p705, .ok (.int 480))])])]),
  ("Third Generation", [
    (90, [
      ("potency", [(.p70, .ok (.int 600)), (.p705, .ok (.int 680))]),
      ("potency_no_combo", [(.p70, .ok (.int 400)), (.p705, .ok (.int 480))])]),
    (100, [
      ("potency", [(.p70, .ok (.int 600)), (.p705, .ok (.int 680))]),
      ("potency_no_combo", [(.p70, .ok (.int 400)), (.p705, .ok (.int 480))])])]),
  ("Fourth Generation", [
    (90, [
      ("potency", [(.p70, .ok (.int 600)), (.p705, .ok (.int 680))]),
      ("potency_no_combo", [(.p70, .ok (.int 400)), (.p705, .ok (.int 480))])]),
    (100, [
      ("potency", [(.p70, .ok (.int 600)), (.p705, .ok (.int 680))]),
      ("potency_no_combo", [(.p70, .ok (.int 400)), (.p705, .ok (.int 480))])])]),
  ("Poised for Twinblood", [
    (90, [("duration", [(.p70, do return (← PyVal.mul (.int 60) (.int 1000)))])]),
    (100, [("duration", [(.p70, do return (← PyVal.mul (.int 60) (.int 1000)))])])]),
  ("Uncoiled Twinfang", [
    (100, [
      ("potency", [(.p70, .ok (.int 100)), (.p705, .ok (.int 120))]),
      ("potency_poised", [(.p70, .ok (.int 150)), (.p705, .ok (.int 170))])])]),
  ("Uncoiled Twinblood", [
    (100, [
      ("potency", [(.p70, .ok (.int 100)), (.p705, .ok (.int 120))]),
      ("potency_poised", [(.p70, .ok (.int 150)), (.p705, .ok (.int 170))])])]),
  ("Ouroboros", [(100, [("potency", [(.p70, .ok (.int 1050)), (.p705, .ok (.int 1150))])])]),
  ("First Legacy", [
    (100, [("potency", [(.p70, .ok (.int 250)), (.p705, .ok (.int 280))])])]),
  ("Second Legacy", [
    (100, [("potency", [(.p70, .ok (.int 250)), (.p705, .ok (.int 280))])])]),
  ("Third Legacy", [
    (100, [("potency", [(.p70, .ok (.int 250)), (.p705, .ok (.int 280))])])]),
  ("Fourth Legacy", [
    (100, [("potency", [(.p70, .ok (.int 250)), (.p705, .ok (.int 280))])])])]

/-- class_skills/melee/vpr.py:23-25 `__combo_base_potency_no_venom`, set by the constructor -/
def attr_combo_base_potency_no_venom (env : Env) : Py PyVal := do
  return (← getSkillData table env (.str "Combo Base") (.str "potency_no_venom"))

/-- class_skills/melee/vpr.py:27-29 `__combo_base_potency_with_venom`, set by the constructor -/
def attr_combo_base_potency_with_venom (env : Env) : Py PyVal := do
  return (← getSkillData table env (.str "Combo Base") (.str "potency_venom"))

/-- class_skills/melee/vpr.py:31-44 `get_combo_breakers` -/
def get_combo_breakers (_env : Env) : Py PyVal := do
  return (.tuple [
    (.tuple [(.int 0), (.tuple [(.int 1), (.int 2), (.int 3), (.int 4)])]),
    (.tuple [(.int 1), (.tuple [(.int 0), (.int 2), (.int 3), (.int 4)])]),
    (.tuple [(.int 2), (.tuple [(.int 0), (.int 1), (.int 3), (.int 4)])]),
    (.tuple [(.int 3), (.tuple [(.int 0), (.int 1), (.int 2), (.int 4)])]),
    (.tuple [(.int 4), (.tuple [(.int 0), (.int 1), (.int 2), (.int 3)])])])

/-- class_skills/melee/vpr.py:49-70 `__get_venom_follow_up` -/
def get_venom_follow_up (_env : Env) (name : PyVal) (skill_allowlist : PyVal) (duration : PyVal) (expires_status_effects : PyVal) (delay_after_parent_application : PyVal) : Py PyVal := do
  return (← newFollowUp {
    skill := (← newSkill {
      name := name
      buff_spec := (← newStatusEffectSpec {
        add_to_skill_modifier_condition := (.bool true)
        duration := duration
        num_uses := (.int 1)
        skill_allowlist := skill_allowlist
        expires_status_effects := expires_status_effects }) })
    delay_after_parent_application := delay_after_parent_application
    primary_target_only := (.bool true) })

/-- class_skills/melee/vpr.py:72-82 `auto` -/
def auto (_env : Env) : Py PyVal := do
  let name : PyVal := (.str "Auto")
  return (← newSkill {
    name := name
    is_GCD := (.bool false)
    timing_spec := (← autoTimingSpec)
    damage_spec := (← newDamageSpec {
      potency := (.int 90)
      damage_class := (.damageClass .auto)
      trait_damage_mult_override := (.int 1) }) })

/-- class_skills/melee/vpr.py:84-117 `steel_fangs` -/
def steel_fangs (env : Env) : Py PyVal := do
  let honed_reavers_follow_up : PyVal := (← ifExp (env.ge .p705)
    (do return (← newFollowUp {
        skill := (← newSkill {
          name := (.str "Honed Reavers")
          buff_spec := (← newStatusEffectSpec {
            add_to_skill_modifier_condition := (.bool true)
            duration := (← PyVal.mul (.int 60) (.int 1000))
            num_uses := (.int 1)
            skill_allowlist := (.tuple [(.str "Reaving Fangs"), (.str "Reaving Maw")])
            expires_status_effects := (.tuple [(.str "Honed Steel")]) }) })
        delay_after_parent_application := (.int 0)
        primary_target_only := (.bool true) }))
    (.ok .none))
  let name : PyVal := (.str "Steel Fangs")
  return (← newSkill {
    name := name
    is_GCD := (.bool true)
    damage_spec := (← getSkillData table env name (.str "damage_spec"))
    timing_spec := (← newTimingSpec {
      base_cast_time := (.int 0)
      animation_lock := (.int 650)
      application_delay := (.int 1160) })
    follow_up_skills := (← ifExp (env.ge .p705) (.ok (.tuple [honed_reavers_follow_up])) (.ok (.tuple []))) })

/-- class_skills/melee/vpr.py:119-131 `__get_hunters_instinct_follow_up` -/
def get_hunters_instinct_follow_up (env : Env) : Py PyVal := do
  let name : PyVal := (.str "Hunter's Instinct")
  return (← newFollowUp {
    skill := (← newSkill {
      name := name
      buff_spec := (← newStatusEffectSpec {
        damage_mult := (.float (110 / 100))
        duration := (← getSkillData table env name (.str "duration")) }) })
    delay_after_parent_application := (.int 0)
    primary_target_only := (.bool true) })

/-- class_skills/melee/vpr.py:133-144 `hunters_sting` -/
def hunters_sting (env : Env) : Py PyVal := do
  let name : PyVal := (.str "Hunter's Sting")
  return (← newSkill {
    name := name
    is_GCD := (.bool true)
    damage_spec := (← newDamageSpec { potency := (← getPotency table env name) })
    timing_spec := (← newTimingSpec {
      base_cast_time := (.int 0)
      animation_lock := (.int 650)
      application_delay := (.int 890) })
    follow_up_skills := (.tuple [(← get_hunters_instinct_follow_up env)]) })

/-- class_skills/melee/vpr.py:146-161 `__get_noxious_gnash_follow_up` -/
def get_noxious_gnash_follow_up (env : Env) : Py PyVal := do
  if env.ge .p705 then
    return .none
  let name : PyVal := (.str "Noxious Gnash")
  return (← newFollowUp {
    skill := (← newSkill {
      name := name
      debuff_spec := (← newStatusEffectSpec {
        damage_mult := (.float (110 / 100))
        duration := (← getSkillData table env name (.str "duration"))
        max_duration := (← getSkillData table env name (.str "max_duration")) }) })
    delay_after_parent_application := (.int 0)
    primary_target_only := (.bool true) })

/-- class_skills/melee/vpr.py:163-180 `__get_honed_steel_follow_up` -/
def get_honed_steel_follow_up (env : Env) : Py PyVal := do
  if env.le .p701 then
    return .none
  let name : PyVal := (.str "Honed Steel")
  return (← newFollowUp {
    skill := (← newSkill {
      name := name
      buff_spec := (← newStatusEffectSpec {
        add_to_skill_modifier_condition := (.bool true)
        duration := (← PyVal.mul (.int 60) (.int 1000))
        num_uses := (.int 1)
        skill_allowlist := (.tuple [(.str "Steel Fangs"), (.str "Steel Maw")])
        expires_status_effects := (.tuple [(.str "Honed Reavers")]) }) })
    delay_after_parent_application := (.int 0)
    primary_target_only := (.bool true) })

/-- class_skills/melee/vpr.py:182-195 `dread_fangs` -/
def dread_fangs (env : Env) : Py PyVal := do
  if env.ge .p705 then
    return .none
  let name : PyVal := (.str "Dread Fangs")
  return (← newSkill {
    name := name
    is_GCD := (.bool true)
    damage_spec := (← newDamageSpec { potency := (← getPotency table env name) })
    timing_spec := (← newTimingSpec {
      base_cast_time := (.int 0)
      animation_lock := (.int 650)
      application_delay := (.int 1290) })
    follow_up_skills := (.tuple [(← get_noxious_gnash_follow_up env)]) })

/-- class_skills/melee/vpr.py:197-219 `reaving_fangs` -/
def reaving_fangs (env : Env) : Py PyVal := do
  if env.le .p701 then
    return .none
  let name : PyVal := (.str "Reaving Fangs")
  return (← newSkill {
    name := name
    is_GCD := (.bool true)
    damage_spec := (mkDict [
      ((.str SimConsts.DEFAULT_CONDITION), (← newDamageSpec { potency := (← getPotency table env name) })),
      ((.str "Honed Reavers"), (← newDamageSpec {
        potency := (← getSkillData table env name (.str "potency_honed_reavers")) }))])
    timing_spec := (← newTimingSpec {
      base_cast_time := (.int 0)
      animation_lock := (.int 650)
      application_delay := (.int 1290) })
    follow_up_skills := (.tuple [(← get_honed_steel_follow_up env)]) })

/-- class_skills/melee/vpr.py:221-231 `writhing_snap` -/
def writhing_snap (env : Env) : Py PyVal := do
  let name : PyVal := (.str "Writhing Snap")
  return (← newSkill {
    name := name
    is_GCD := (.bool true)
    damage_spec := (← newDamageSpec { potency := (← getPotency table env name) })
    timing_spec := (← newTimingSpec {
      base_cast_time := (.int 0)
      animation_lock := (.int 650)
      application_delay := (.int 490) }) })

/-- class_skills/melee/vpr.py:233-246 `__get_swift_scaled_follow_up` -/
def get_swift_scaled_follow_up (env : Env) : Py PyVal := do
  let name : PyVal := (.str "Swiftscaled")
  return (← newFollowUp {
    skill := (← newSkill {
      name := name
      buff_spec := (← newStatusEffectSpec {
        haste_time_reduction := (.float (15 / 100))
        auto_attack_delay_reduction := (.float (15 / 100))
        duration := (← getSkillData table env name (.str "duration")) }) })
    delay_after_parent_application := (.int 0)
    primary_target_only := (.bool true) })

/-- class_skills/melee/vpr.py:248-259 `swiftskins_sting` -/
def swiftskins_sting (env : Env) : Py PyVal := do
  let name : PyVal := (.str "Swiftskin's Sting")
  return (← newSkill {
    name := name
    is_GCD := (.bool true)
    damage_spec := (← newDamageSpec { potency := (← getPotency table env name) })
    timing_spec := (← newTimingSpec {
      base_cast_time := (.int 0)
      animation_lock := (.int 650)
      application_delay := (.int 1160) })
    follow_up_skills := (.tuple [(← get_swift_scaled_follow_up env)]) })

/-- class_skills/melee/vpr.py:261-272 `steel_maw` -/
def steel_maw (env : Env) : Py PyVal := do
  let name : PyVal := (.str "Steel Maw")
  return (← newSkill {
    name := name
    is_GCD := (.bool true)
    timing_spec := (← newTimingSpec {
      base_cast_time := (.int 0)
      animation_lock := (.int 650)
      application_delay := (.int 1020) })
    damage_spec := (← getSkillData table env name (.str "damage_spec"))
    has_aoe := (.bool true) })

/-- class_skills/melee/vpr.py:274-320 `flanksting_strike` -/
def flanksting_strike (env : Env) : Py PyVal := do
  let venom_name : PyVal := (.str "Hindstung Venom")
  let hindstung_venom_follow_up : PyVal := (← get_venom_follow_up env venom_name (.tuple [(.str "Hindsting Strike")]) (← getSkillData table env venom_name (.str "duration")) (.tuple [
    (.str "Hindsbane Venom"), (.str "Flanksbane Venom"), (.str "Flankstung Venom"),
    (.str "Grimskin's Venom"), (.str "Grimhunter's Venom")]) (.int 0))
  let name : PyVal := (.str "Flanksting Strike")
  return (← newSkill {
    name := name
    is_GCD := (.bool true)
    damage_spec := (mkDict [
      ((.str SimConsts.DEFAULT_CONDITION), (← newDamageSpec {
        potency := (← getPotency table env name)
        use_min_potency := (← attr_combo_base_potency_no_venom env) })),
      ((.str "No Positional"), (← newDamageSpec {
        potency := (← getPotencyNoPositional table env name)
        use_min_potency := (← attr_combo_base_potency_no_venom env) })),
      ((.str "Flankstung Venom"), (← newDamageSpec {
        potency := (← getSkillData table env name (.str "potency_venom"))
        use_min_potency := (← attr_combo_base_potency_with_venom env) })),
      ((.str "Flankstung Venom, No Positional"), (← newDamageSpec {
        potency := (← getSkillData table env name (.str "potency_no_pos_venom"))
        use_min_potency := (← attr_combo_base_potency_with_venom env) }))])
    timing_spec := (← newTimingSpec {
      base_cast_time := (.int 0)
      animation_lock := (.int 650)
      application_delay := (.int 620) })
    follow_up_skills := (.tuple [hindstung_venom_follow_up]) })

/-- class_skills/melee/vpr.py:322-369 `flanksbane_fang` -/
def flanksbane_fang (env : Env) : Py PyVal := do
  let venom_name : PyVal := (.str "Hindsbane Venom")
  let hindsbane_venom_follow_up : PyVal := (← get_venom_follow_up env venom_name (.tuple [(.str "Hindsbane Fang")]) (← getSkillData table env venom_name (.str "duration")) (.tuple [
    (.str "Hindstung Venom"), (.str "Flanksbane Venom"), (.str "Flankstung Venom"),
    (.str "Grimskin's Venom"), (.str "Grimhunter's Venom")]) (.int 0))
  let name : PyVal := (.str "Flanksbane Fang")
  return (← newSkill {
    name := name
    is_GCD := (.bool true)
    damage_spec := (mkDict [
      ((.str SimConsts.DEFAULT_CONDITION), (← newDamageSpec {
        potency := (← getPotency table env name)
        use_min_potency := (← attr_combo_base_potency_no_venom env) })),
      ((.str "No Positional"), (← newDamageSpec {
        potency := (← getPotencyNoPositional table env name)
        use_min_potency := (← attr_combo_base_potency_no_venom env) })),
      ((.str "Flanksbane Venom"), (← newDamageSpec {
        potency := (← getSkillData table env name (.str "potency_venom"))
        use_min_potency := (← attr_combo_base_potency_with_venom env) })),
      ((.str "Flanksbane Venom, No Positional"), (← newDamageSpec {
        potency := (← getSkillData table env name (.str "potency_no_pos_venom"))
        use_min_potency := (← attr_combo_base_potency_with_venom env) }))])
    timing_spec := (← newTimingSpec {
      base_cast_time := (.int 0)
      animation_lock := (.int 650)
      application_delay := (.int 620) })
    follow_up_skills := (.tuple [hindsbane_venom_follow_up]) })

/-- class_skills/melee/vpr.py:371-417 `hindsting_strike` -/
def hindsting_strike (env : Env) : Py PyVal := do
  let venom_name : PyVal := (.str "Flanksbane Venom")
  let flanksbane_venom_follow_up : PyVal := (← get_venom_follow_up env venom_name (.tuple [(.str "Flanksbane Fang")]) (← getSkillData table env venom_name (.str "duration")) (.tuple [
    (.str "Hindstung Venom"), (.str "Hindsbane Venom"), (.str "Flankstung Venom"),
    (.str "Grimskin's Venom"), (.str "Grimhunter's Venom")]) (.int 0))
  let name : PyVal := (.str "Hindsting Strike")
  return (← newSkill {
    name := name
    is_GCD := (.bool true)
    damage_spec := (mkDict [
      ((.str SimConsts.DEFAULT_CONDITION), (← newDamageSpec {
        potency := (← getPotency table env name)
        use_min_potency := (← attr_combo_base_potency_no_venom env) })),
      ((.str "No Positional"), (← newDamageSpec {
        potency := (← getPotencyNoPositional table env name)
        use_min_potency := (← attr_combo_base_potency_no_venom env) })),
      ((.str "Hindstung Venom"), (← newDamageSpec {
        potency := (← getSkillData table env name (.str "potency_venom"))
        use_min_potency := (← attr_combo_base_potency_with_venom env) })),
      ((.str "Hindstung Venom, No Positional"), (← newDamageSpec {
        potency := (← getSkillData table env name (.str "potency_no_pos_venom"))
        use_min_potency := (← attr_combo_base_potency_with_venom env) }))])
    timing_spec := (← newTimingSpec {
      base_cast_time := (.int 0)
      animation_lock := (.int 650)
      application_delay := (.int 620) })
    follow_up_skills := (.tuple [flanksbane_venom_follow_up]) })

/-- class_skills/melee/vpr.py:419-463 `hindsbane_fang` -/
def hindsbane_fang (env : Env) : Py PyVal := do
  let venom_name : PyVal := (.str "Flankstung Venom")
  let flankstung_venom_follow_up : PyVal := (← get_venom_follow_up env venom_name (.tuple [(.str "Flanksting Strike")]) (← getSkillData table env venom_name (.str "duration")) (.tuple [
    (.str "Hindstung Venom"), (.str "Hindsbane Venom"), (.str "Flanksbane Venom"),
    (.str "Grimskin's Venom"), (.str "Grimhunter's Venom")]) (.int 0))
  let name : PyVal := (.str "Hindsbane Fang")
  return (← newSkill {
    name := name
    is_GCD := (.bool true)
    damage_spec := (mkDict [
      ((.str SimConsts.DEFAULT_CONDITION), (← newDamageSpec {
        potency := (← getPotency table env name)
        use_min_potency := (← attr_combo_base_potency_no_venom env) })),
      ((.str "No Positional"), (← newDamageSpec {
        potency := (← getPotencyNoPositional table env name)
        use_min_potency := (← attr_combo_base_potency_no_venom env) })),
      ((.str "Hindsbane Venom"), (← newDamageSpec {
        potency := (← getSkillData table env name (.str "potency_venom"))
        use_min_potency := (← attr_combo_base_potency_with_venom env) })),
      ((.str "Hindsbane Venom, No Positional"), (← newDamageSpec {
        potency := (← getSkillData table env name (.str "potency_no_pos_venom"))
        use_min_potency := (← attr_combo_base_potency_with_venom env) }))])
    timing_spec := (← newTimingSpec {
      base_cast_time := (.int 0)
      animation_lock := (.int 650)
      application_delay := (.int 620) })
    follow_up_skills := (.tuple [flankstung_venom_follow_up]) })

/-- class_skills/melee/vpr.py:465-479 `dread_maw` -/
def dread_maw (env : Env) : Py PyVal := do
  if env.ge .p705 then
    return .none
  let name : PyVal := (.str "Dread Maw")
  return (← newSkill {
    name := name
    is_GCD := (.bool true)
    damage_spec := (← newDamageSpec { potency := (← getPotency table env name) })
    timing_spec := (← newTimingSpec {
      base_cast_time := (.int 0)
      animation_lock := (.int 650)
      application_delay := (.int 620) })
    follow_up_skills := (.tuple [(← get_noxious_gnash_follow_up env)])
    has_aoe := (.bool true) })

/-- class_skills/melee/vpr.py:481-504 `reaving_maw` -/
def reaving_maw (env : Env) : Py PyVal := do
  if env.le .p701 then
    return .none
  let name : PyVal := (.str "Reaving Maw")
  return (← newSkill {
    name := name
    is_GCD := (.bool true)
    damage_spec := (mkDict [
      ((.str SimConsts.DEFAULT_CONDITION), (← newDamageSpec { potency := (← getPotency table env name) })),
      ((.str "Honed Reavers"), (← newDamageSpec {
        potency := (← getSkillData table env name (.str "potency_honed_reavers")) }))])
    timing_spec := (← newTimingSpec {
      base_cast_time := (.int 0)
      animation_lock := (.int 650)
      application_delay := (.int 620) })
    follow_up_skills := (.tuple [(← get_honed_steel_follow_up env)])
    has_aoe := (.bool true) })

/-- class_skills/melee/vpr.py:506-518 `hunters_bite` -/
def hunters_bite (env : Env) : Py PyVal := do
  let name : PyVal := (.str "Hunter's Bite")
  return (← newSkill {
    name := name
    is_GCD := (.bool true)
    damage_spec := (← newDamageSpec { potency := (← getPotency table env name) })
    timing_spec := (← newTimingSpec {
      base_cast_time := (.int 0)
      animation_lock := (.int 650)
      application_delay := (.int 1070) })
    follow_up_skills := (.tuple [(← get_hunters_instinct_follow_up env)])
    has_aoe := (.bool true) })

/-- class_skills/melee/vpr.py:520-532 `swiftskins_bite` -/
def swiftskins_bite (env : Env) : Py PyVal := do
  let name : PyVal := (.str "Swiftskin's Bite")
  return (← newSkill {
    name := name
    is_GCD := (.bool true)
    damage_spec := (← newDamageSpec { potency := (← getPotency table env name) })
    timing_spec := (← newTimingSpec {
      base_cast_time := (.int 0)
      animation_lock := (.int 650)
      application_delay := (.int 1380) })
    follow_up_skills := (.tuple [(← get_swift_scaled_follow_up env)])
    has_aoe := (.bool true) })

/-- class_skills/melee/vpr.py:534-569 `jagged_maw` -/
def jagged_maw (env : Env) : Py PyVal := do
  let venom_name : PyVal := (.str "Grimskin's Venom")
  let grimskins_venom_follow_up : PyVal := (← get_venom_follow_up env venom_name (.tuple [(.str "Bloodied Maw")]) (← getSkillData table env venom_name (.str "duration")) (.tuple [
    (.str "Hindstung Venom"), (.str "Hindsbane Venom"), (.str "Flanksbane Venom"),
    (.str "Flankstung Venom"), (.str "Grimhunter's Venom")]) (.int 0))
  let name : PyVal := (.str "Jagged Maw")
  return (← newSkill {
    name := name
    is_GCD := (.bool true)
    damage_spec := (mkDict [
      ((.str SimConsts.DEFAULT_CONDITION), (← newDamageSpec { potency := (← getPotency table env name) })),
      ((.str "Grimhunter's Venom"), (← newDamageSpec { potency := (← getSkillData table env name (.str "potency_venom")) }))])
    timing_spec := (← newTimingSpec {
      base_cast_time := (.int 0)
      animation_lock := (.int 650)
      application_delay := (.int 620) })
    follow_up_skills := (.tuple [grimskins_venom_follow_up])
    has_aoe := (.bool true) })

/-- class_skills/melee/vpr.py:571-606 `bloodied_maw` -/
def bloodied_maw (env : Env) : Py PyVal := do
  let venom_name : PyVal := (.str "Grimhunter's Venom")
  let grimhunters_venom_follow_up : PyVal := (← get_venom_follow_up env venom_name (.tuple [(.str "Jagged Maw")]) (← getSkillData table env venom_name (.str "duration")) (.tuple [
    (.str "Hindstung Venom"), (.str "Hindsbane Venom"), (.str "Flanksbane Venom"),
    (.str "Flankstung Venom"), (.str "Grimskin's Venom")]) (.int 0))
  let name : PyVal := (.str "Bloodied Maw")
  return (← newSkill {
    name := name
    is_GCD := (.bool true)
    damage_spec := (mkDict [
      ((.str SimConsts.DEFAULT_CONDITION), (← newDamageSpec { potency := (← getPotency table env name) })),
      ((.str "Grimskin's Venom"), (← newDamageSpec { potency := (← getSkillData table env name (.str "potency_venom")) }))])
    timing_spec := (← newTimingSpec {
      base_cast_time := (.int 0)
      animation_lock := (.int 650)
      application_delay := (.int 620) })
    follow_up_skills := (.tuple [grimhunters_venom_follow_up])
    has_aoe := (.bool true) })

/-- class_skills/melee/vpr.py:608-618 `death_rattle` -/
def death_rattle (env : Env) : Py PyVal := do
  let name : PyVal := (.str "Death Rattle")
  return (← newSkill {
    name := name
    is_GCD := (.bool false)
    damage_spec := (← newDamageSpec { potency := (← getPotency table env name) })
    timing_spec := (← newTimingSpec {
      base_cast_time := (.int 0)
      animation_lock := (.int 650)
      application_delay := (.int 1700) }) })

/-- class_skills/melee/vpr.py:620-631 `last_lash` -/
def last_lash (env : Env) : Py PyVal := do
  let name : PyVal := (.str "Last Lash")
  return (← newSkill {
    name := name
    is_GCD := (.bool false)
    damage_spec := (← newDamageSpec { potency := (← getPotency table env name) })
    timing_spec := (← newTimingSpec {
      base_cast_time := (.int 0)
      animation_lock := (.int 650)
      application_delay := (.int 1160) })
    has_aoe := (.bool true) })

/-- class_skills/melee/vpr.py:633-649 `dreadwinder` -/
def dreadwinder (env : Env) : Py PyVal := do
  if env.ge .p705 then
    return .none
  let name : PyVal := (.str "Dreadwinder")
  return (← newSkill {
    name := name
    is_GCD := (.bool true)
    damage_spec := (← newDamageSpec { potency := (← getPotency table env name) })
    timing_spec := (← newTimingSpec {
      base_cast_time := (.int 0)
      animation_lock := (.int 650)
      application_delay := (.int 580)
      gcd_base_recast_time := (.int 3000) })
    follow_up_skills := (.tuple [(← get_noxious_gnash_follow_up env)]) })

/-- class_skills/melee/vpr.py:651-666 `vicewinder` -/
def vicewinder (env : Env) : Py PyVal := do
  if env.le .p701 then
    return .none
  let name : PyVal := (.str "Vicewinder")
  return (← newSkill {
    name := name
    is_GCD := (.bool true)
    damage_spec := (← newDamageSpec { potency := (← getPotency table env name) })
    timing_spec := (← newTimingSpec {
      base_cast_time := (.int 0)
      animation_lock := (.int 650)
      application_delay := (.int 580)
      gcd_base_recast_time := (.int 3000) }) })

/-- class_skills/melee/vpr.py:668-672 `__get_hunters_venom_follow_up` -/
def get_hunters_venom_follow_up (env : Env) : Py PyVal := do
  let name : PyVal := (.str "Hunter's Venom")
  return (← get_venom_follow_up env name (.tuple [(.str "Twinfang Bite")]) (← getSkillData table env name (.str "duration")) (.tuple []) (.int 0))

/-- class_skills/melee/vpr.py:674-717 `hunters_coil` -/
def hunters_coil (env : Env) : Py PyVal := do
  let name : PyVal := (.str "Hunter's Coil")
  let hunters_coil_follow_up : PyVal := (← newFollowUp {
    skill := (← newSkill {
      name := name
      damage_spec := (← newDamageSpec { potency := (← getPotency table env name) }) })
    delay_after_parent_application := (.int 980) })
  let hunters_coil_no_pos_follow_up : PyVal := (← newFollowUp {
    skill := (← newSkill {
      name := name
      damage_spec := (← newDamageSpec { potency := (← getPotencyNoPositional table env name) }) })
    delay_after_parent_application := (.int 980) })
  let hunters_instinct_follow_up : PyVal := (← get_hunters_instinct_follow_up env)
  let hunters_venom_follow_up : PyVal := (← get_hunters_venom_follow_up env)
  return (← newSkill {
    name := name
    combo_spec := (.tuple [(← newComboSpec { combo_group := (.int 0) })])
    is_GCD := (.bool true)
    timing_spec := (← newTimingSpec {
      base_cast_time := (.int 0)
      animation_lock := (.int 650)
      application_delay := (.int 0)
      gcd_base_recast_time := (.int 3000) })
    follow_up_skills := (mkDict [
      ((.str SimConsts.DEFAULT_CONDITION), (.tuple [hunters_coil_follow_up, hunters_instinct_follow_up, hunters_venom_follow_up])),
      ((.str "No Positional"), (.tuple [
        hunters_coil_no_pos_follow_up,
        hunters_instinct_follow_up,
        hunters_venom_follow_up]))]) })

/-- class_skills/melee/vpr.py:719-723 `__get_swiftskins_venom_follow_up` -/
def get_swiftskins_venom_follow_up (env : Env) : Py PyVal := do
  let name : PyVal := (.str "Swiftskin's Venom")
  return (← get_venom_follow_up env name (.tuple [(.str "Twinblood Bite")]) (← getSkillData table env name (.str "duration")) (.tuple []) (.int 0))

/-- class_skills/melee/vpr.py:725-750 `swiftskins_coil` -/
def swiftskins_coil (env : Env) : Py PyVal := do
  let name : PyVal := (.str "Swiftskin's Coil")
  return (← newSkill {
    name := name
    is_GCD := (.bool true)
    combo_spec := (.tuple [(← newComboSpec { combo_group := (.int 1) })])
    damage_spec := (mkDict [
      ((.str SimConsts.DEFAULT_CONDITION), (← newDamageSpec { potency := (← getPotency table env name) })),
      ((.str "No Positional"), (← newDamageSpec { potency := (← getPotencyNoPositional table env name) }))])
    timing_spec := (← newTimingSpec {
      base_cast_time := (.int 0)
      animation_lock := (.int 650)
      application_delay := (.int 620)
      gcd_base_recast_time := (.int 3000) })
    follow_up_skills := (.tuple [(← get_swift_scaled_follow_up env), (← get_swiftskins_venom_follow_up env)]) })

/-- class_skills/melee/vpr.py:752-766 `pit_of_dread` -/
def pit_of_dread (env : Env) : Py PyVal := do
  if env.ge .p705 then
    return .none
  let name : PyVal := (.str "Pit of Dread")
  return (← newSkill {
    name := name
    is_GCD := (.bool true)
    damage_spec := (← newDamageSpec { potency := (← getPotency table env name) })
    timing_spec := (← newTimingSpec {
      base_cast_time := (.int 0)
      animation_lock := (.int 650)
      application_delay := (.int 760) })
    follow_up_skills := (.tuple [(← get_noxious_gnash_follow_up env)])
    has_aoe := (.bool true) })

/-- class_skills/melee/vpr.py:768-781 `vicepit` -/
def vicepit (env : Env) : Py PyVal := do
  if env.le .p701 then
    return .none
  let name : PyVal := (.str "Vicepit")
  return (← newSkill {
    name := name
    is_GCD := (.bool true)
    damage_spec := (← newDamageSpec { potency := (← getPotency table env name) })
    timing_spec := (← newTimingSpec {
      base_cast_time := (.int 0)
      animation_lock := (.int 650)
      application_delay := (.int 760) })
    has_aoe := (.bool true) })

/-- class_skills/melee/vpr.py:783-789 `__get_fellhunters_venom_follow_up` -/
def get_fellhunters_venom_follow_up (env : Env) : Py PyVal := do
  let name : PyVal := (.str "Fellhunter's Venom")
  return (← get_venom_follow_up env name (.tuple [(.str "Twinfang Thresh")]) (← getSkillData table env name (.str "duration")) (.tuple []) (.int 0))

/-- class_skills/melee/vpr.py:791-810 `hunters_den` -/
def hunters_den (env : Env) : Py PyVal := do
  let name : PyVal := (.str "Hunter's Den")
  return (← newSkill {
    name := name
    is_GCD := (.bool true)
    combo_spec := (.tuple [(← newComboSpec { combo_group := (.int 2) })])
    damage_spec := (← newDamageSpec { potency := (← getPotency table env name) })
    timing_spec := (← newTimingSpec {
      base_cast_time := (.int 0)
      animation_lock := (.int 650)
      application_delay := (.int 490)
      gcd_base_recast_time := (.int 3000) })
    follow_up_skills := (.tuple [(← get_hunters_instinct_follow_up env), (← get_fellhunters_venom_follow_up env)])
    has_aoe := (.bool true) })

/-- class_skills/melee/vpr.py:812-818 `__get_fellskins_venom_follow_up` -/
def get_fellskins_venom_follow_up (env : Env) : Py PyVal := do
  let name : PyVal := (.str "Fellskin's Venom")
  return (← get_venom_follow_up env name (.tuple [(.str "Twinblood Thresh")]) (← getSkillData table env name (.str "duration")) (.tuple []) (.int 0))

/-- class_skills/melee/vpr.py:820-846 `swiftskins_den` -/
def swiftskins_den (env : Env) : Py PyVal := do
  let name : PyVal := (.str "Swiftskin's Den")
  let swiftskins_den_damage_followup : PyVal := (← newFollowUp {
    skill := (← newSkill {
      name := name
      damage_spec := (← newDamageSpec { potency := (← getPotency table env name) }) })
    delay_after_parent_application := (.int 790)
    primary_target_only := (.bool false) })
  return (← newSkill {
    name := name
    is_GCD := (.bool true)
    combo_spec := (.tuple [(← newComboSpec { combo_group := (.int 3) })])
    timing_spec := (← newTimingSpec {
      base_cast_time := (.int 0)
      animation_lock := (.int 650)
      application_delay := (.int 0) })
    follow_up_skills := (.tuple [
      swiftskins_den_damage_followup,
      (← get_swift_scaled_follow_up env),
      (← get_fellskins_venom_follow_up env)])
    has_aoe := (.bool true) })

/-- class_skills/melee/vpr.py:848-886 `twinfang_bite` -/
def twinfang_bite (env : Env) : Py PyVal := do
  let name : PyVal := (.str "Twinfang Bite")
  let twinfang_bite_damage_followup : PyVal := (← newFollowUp {
    skill := (← newSkill {
      name := name
      damage_spec := (← newDamageSpec { potency := (← getPotency table env name) }) })
    delay_after_parent_application := (.int 620) })
  let twinfang_bite_damage_venom_followup : PyVal := (← newFollowUp {
    skill := (← newSkill {
      name := name
      damage_spec := (← newDamageSpec { potency := (← getSkillData table env name (.str "potency_venom")) }) })
    delay_after_parent_application := (.int 620) })
  return (← newSkill {
    name := name
    is_GCD := (.bool false)
    combo_spec := (.tuple [
      (← newComboSpec {
        combo_group := (.int 0)
        combo_actions := (.tuple [(.str "Hunter's Coil")]) })])
    timing_spec := (← newTimingSpec {
      base_cast_time := (.int 0)
      animation_lock := (.int 650)
      application_delay := (.int 0) })
    follow_up_skills := (mkDict [
      ((.str SimConsts.DEFAULT_CONDITION), (.tuple [twinfang_bite_damage_followup, (← get_swiftskins_venom_follow_up env)])),
      ((.str "Hunter's Venom"), (.tuple [twinfang_bite_damage_venom_followup, (← get_swiftskins_venom_follow_up env)])),
      ((.str "Hunter's Venom, No Combo"), (.tuple [twinfang_bite_damage_venom_followup])),
      ((.str "No Combo"), (.tuple [twinfang_bite_damage_followup]))]) })

/-- class_skills/melee/vpr.py:888-926 `twinblood_bite` -/
def twinblood_bite (env : Env) : Py PyVal := do
  let name : PyVal := (.str "Twinblood Bite")
  let twinblood_damage_follow_up : PyVal := (← newFollowUp {
    skill := (← newSkill {
      name := name
      damage_spec := (← newDamageSpec { potency := (← getPotency table env name) }) })
    delay_after_parent_application := (.int 670) })
  let twinblood_damage_venom_follow_up : PyVal := (← newFollowUp {
    skill := (← newSkill {
      name := name
      damage_spec := (← newDamageSpec { potency := (← getSkillData table env name (.str "potency_venom")) }) })
    delay_after_parent_application := (.int 670) })
  return (← newSkill {
    name := name
    is_GCD := (.bool false)
    combo_spec := (.tuple [
      (← newComboSpec {
        combo_group := (.int 1)
        combo_actions := (.tuple [(.str "Swiftskin's Coil")]) })])
    timing_spec := (← newTimingSpec {
      base_cast_time := (.int 0)
      animation_lock := (.int 650)
      application_delay := (.int 0) })
    follow_up_skills := (mkDict [
      ((.str SimConsts.DEFAULT_CONDITION), (.tuple [twinblood_damage_follow_up, (← get_hunters_venom_follow_up env)])),
      ((.str "Swiftskin's Venom"), (.tuple [twinblood_damage_venom_follow_up, (← get_hunters_venom_follow_up env)])),
      ((.str "No Combo, Swiftskin's Venom"), (.tuple [twinblood_damage_venom_follow_up])),
      ((.str "No Combo"), (.tuple [twinblood_damage_follow_up]))]) })

/-- class_skills/melee/vpr.py:928-969 `twinfang_thresh` -/
def twinfang_thresh (env : Env) : Py PyVal := do
  let name : PyVal := (.str "Twinfang Thresh")
  let twinfang_thresh_damage_follow_up : PyVal := (← newFollowUp {
    skill := (← newSkill {
      name := name
      damage_spec := (← newDamageSpec { potency := (← getPotency table env name) }) })
    delay_after_parent_application := (.int 670)
    primary_target_only := (.bool false) })
  let twinfang_thresh_venom_follow_up : PyVal := (← newFollowUp {
    skill := (← newSkill {
      name := name
      damage_spec := (← newDamageSpec { potency := (← getSkillData table env name (.str "potency_venom")) }) })
    delay_after_parent_application := (.int 670)
    primary_target_only := (.bool false) })
  return (← newSkill {
    name := name
    is_GCD := (.bool false)
    combo_spec := (.tuple [
      (← newComboSpec {
        combo_group := (.int 2)
        combo_actions := (.tuple [(.str "Hunter's Den")]) })])
    timing_spec := (← newTimingSpec {
      base_cast_time := (.int 0)
      animation_lock := (.int 650)
      application_delay := (.int 0) })
    follow_up_skills := (mkDict [
      ((.str SimConsts.DEFAULT_CONDITION), (.tuple [twinfang_thresh_damage_follow_up, (← get_fellskins_venom_follow_up env)])),
      ((.str "Fellskin's Venom"), (.tuple [twinfang_thresh_venom_follow_up, (← get_fellskins_venom_follow_up env)])),
      ((.str "No Combo, Fellskin's Venom"), (.tuple [twinfang_thresh_venom_follow_up])),
      ((.str "No Combo"), (.tuple [twinfang_thresh_damage_follow_up]))])
    has_aoe := (.bool true) })

/-- class_skills/melee/vpr.py:971-996 `twinblood_thresh` -/
def twinblood_thresh (env : Env) : Py PyVal := do
  let name : PyVal := (.str "Twinblood Thresh")
  return (← newSkill {
    name := name
    is_GCD := (.bool false)
    combo_spec := (.tuple [
      (← newComboSpec {
        combo_group := (.int 3)
        combo_actions := (.tuple [(.str "Swiftskin's Den")]) })])
    damage_spec := (mkDict [
      ((.str SimConsts.DEFAULT_CONDITION), (← newDamageSpec { potency := (← getPotency table env name) })),
      ((.str "Fellhunter's Venom"), (← newDamageSpec { potency := (← getSkillData table env name (.str "potency_venom")) }))])
    timing_spec := (← newTimingSpec {
      base_cast_time := (.int 0)
      animation_lock := (.int 650)
      application_delay := (.int 620) })
    follow_up_skills := (mkDict [
      ((.str SimConsts.DEFAULT_CONDITION), (.tuple [(← get_fellhunters_venom_follow_up env)])),
      ((.str "No Combo"), (.tuple []))])
    has_aoe := (.bool true) })

/-- class_skills/melee/vpr.py:998-1032 `uncoiled_fury` -/
def uncoiled_fury (env : Env) : Py PyVal := do
  let mut name : PyVal := .unbound
  let venom_name : PyVal := (.str "Poised for Twinfang")
  let poised_for_twinfang_follow_up : PyVal := (← get_venom_follow_up env venom_name (.tuple [(.str "Uncoiled Twinfang")]) (← getSkillData table env venom_name (.str "duration")) (.tuple []) (.int 0))
  name := (.str "Uncoiled Fury")
  let uncoiled_fury_follow_up : PyVal := (← newFollowUp {
    skill := (← newSkill {
      name := name
      damage_spec := (← newDamageSpec { potency := (← getPotency table env name) })
      aoe_dropoff := (.float (5 / 10)) })
    delay_after_parent_application := (.int 800)
    primary_target_only := (.bool false) })
  name := (.str "Uncoiled Fury")
  return (← newSkill {
    name := name
    is_GCD := (.bool true)
    timing_spec := (← newTimingSpec {
      base_cast_time := (.int 0)
      animation_lock := (.int 650)
      application_delay := (.int 0)
      gcd_base_recast_time := (.int 3500) })
    follow_up_skills := (.tuple [uncoiled_fury_follow_up, poised_for_twinfang_follow_up])
    has_aoe := (.bool true) })

/-- class_skills/melee/vpr.py:1034-1050 `reawaken` -/
def reawaken (env : Env) : Py PyVal := do
  let name : PyVal := (.str "Reawaken")
  return (← newSkill {
    name := name
    combo_spec := (.tuple [(← newComboSpec { combo_group := (.int 4) })])
    is_GCD := (.bool true)
    damage_spec := (← newDamageSpec { potency := (← getPotency table env name) })
    timing_spec := (← newTimingSpec {
      base_cast_time := (.int 0)
      animation_lock := (.int 650)
      application_delay := (.int 620)
      gcd_base_recast_time := (.int 2200) })
    has_aoe := (.bool true)
    aoe_dropoff := (.float (6 / 10)) })

/-- class_skills/melee/vpr.py:1052-1075 `first_generation` -/
def first_generation (env : Env) : Py PyVal := do
  let name : PyVal := (.str "First Generation")
  return (← newSkill {
    name := name
    combo_spec := (.tuple [
      (← newComboSpec {
        combo_group := (.int 4)
        combo_actions := (.tuple [(.str "Reawaken")]) })])
    is_GCD := (.bool true)
    damage_spec := (mkDict [
      ((.str SimConsts.DEFAULT_CONDITION), (← newDamageSpec { potency := (← getPotency table env name) })),
      ((.str "No Combo"), (← newDamageSpec { potency := (← getPotencyNoCombo table env name) }))])
    timing_spec := (← newTimingSpec {
      base_cast_time := (.int 0)
      animation_lock := (.int 650)
      application_delay := (.int 1700)
      gcd_base_recast_time := (.int 2000) })
    has_aoe := (.bool true)
    aoe_dropoff := (.float (6 / 10)) })

/-- class_skills/melee/vpr.py:1077-1100 `second_generation` -/
def second_generation (env : Env) : Py PyVal := do
  let name : PyVal := (.str "Second Generation")
  return (← newSkill {
    name := name
    combo_spec := (.tuple [
      (← newComboSpec {
        combo_group := (.int 4)
        combo_actions := (.tuple [(.str "First Generation")]) })])
    is_GCD := (.bool true)
    damage_spec := (mkDict [
      ((.str SimConsts.DEFAULT_CONDITION), (← newDamageSpec { potency := (← getPotency table env name) })),
      ((.str "No Combo"), (← newDamageSpec { potency := (← getPotencyNoCombo table env name) }))])
    timing_spec := (← newTimingSpec {
      base_cast_time := (.int 0)
      animation_lock := (.int 650)
      application_delay := (.int 1470)
      gcd_base_recast_time := (.int 2000) })
    has_aoe := (.bool true)
    aoe_dropoff := (.float (6 / 10)) })

/-- class_skills/melee/vpr.py:1102-1127 `third_generation` -/
def third_generation (env : Env) : Py PyVal := do
  let name : PyVal := (.str "Third Generation")
  return (← newSkill {
    name := name
    combo_spec := (.tuple [
      (← newComboSpec {
        combo_group := (.int 4)
        combo_actions := (.tuple [(.str "Second Generation")]) })])
    is_GCD := (.bool true)
    damage_spec := (mkDict [
      ((.str SimConsts.DEFAULT_CONDITION), (← newDamageSpec { potency := (← getPotency table env name) })),
      ((.str "No Combo"), (← newDamageSpec { potency := (← getPotencyNoCombo table env name) }))])
    timing_spec := (← newTimingSpec {
      base_cast_time := (.int 0)
      animation_lock := (.int 650)
      application_delay := (.int 1470)
      gcd_base_recast_time := (.int 2000) })
    has_aoe := (.bool true)
    aoe_dropoff := (.float (6 / 10)) })

/-- class_skills/melee/vpr.py:1129-1152 `fourth_generation` -/
def fourth_generation (env : Env) : Py PyVal := do
  let name : PyVal := (.str "Fourth Generation")
  return (← newSkill {
    name := name
    combo_spec := (.tuple [
      (← newComboSpec {
        combo_group := (.int 4)
        combo_actions := (.tuple [(.str "Third Generation")]) })])
    is_GCD := (.bool true)
    damage_spec := (mkDict [
      ((.str SimConsts.DEFAULT_CONDITION), (← newDamageSpec { potency := (← getPotency table env name) })),
      ((.str "No Combo"), (← newDamageSpec { potency := (← getPotencyNoCombo table env name) }))])
    timing_spec := (← newTimingSpec {
      base_cast_time := (.int 0)
      animation_lock := (.int 650)
      application_delay := (.int 1470)
      gcd_base_recast_time := (.int 2000) })
    has_aoe := (.bool true)
    aoe_dropoff := (.float (6 / 10)) })

/-- class_skills/melee/vpr.py:1154-1185 `uncoiled_twinfang` -/
def uncoiled_twinfang (env : Env) : Py PyVal := do
  if decide (env.level < 92) then
    return .none
  let venom_name : PyVal := (.str "Poised for Twinblood")
  let poised_for_twinblood_follow_up : PyVal := (← get_venom_follow_up env venom_name (.tuple [(.str "Uncoiled Twinblood")]) (← getSkillData table env venom_name (.str "duration")) (.tuple []) (.int 0))
  let name : PyVal := (.str "Uncoiled Twinfang")
  return (← newSkill {
    name := name
    is_GCD := (.bool false)
    damage_spec := (mkDict [
      ((.str SimConsts.DEFAULT_CONDITION), (← newDamageSpec { potency := (← getPotency table env name) })),
      ((.str "Poised for Twinfang"), (← newDamageSpec { potency := (← getSkillData table env name (.str "potency_poised")) }))])
    timing_spec := (← newTimingSpec {
      base_cast_time := (.int 0)
      animation_lock := (.int 650)
      application_delay := (.int 620) })
    follow_up_skills := (.tuple [poised_for_twinblood_follow_up])
    has_aoe := (.bool true)
    aoe_dropoff := (.float (5 / 10)) })

/-- class_skills/melee/vpr.py:1187-1208 `uncoiled_twinblood` -/
def uncoiled_twinblood (env : Env) : Py PyVal := do
  if decide (env.level < 92) then
    return .none
  let name : PyVal := (.str "Uncoiled Twinblood")
  return (← newSkill {
    name := name
    is_GCD := (.bool false)
    damage_spec := (mkDict [
      ((.str SimConsts.DEFAULT_CONDITION), (← newDamageSpec { potency := (← getPotency table env name) })),
      ((.str "Poised for Twinblood"), (← newDamageSpec { potency := (← getSkillData table env name (.str "potency_poised")) }))])
    timing_spec := (← newTimingSpec {
      base_cast_time := (.int 0)
      animation_lock := (.int 650)
      application_delay := (.int 980) })
    has_aoe := (.bool true)
    aoe_dropoff := (.float (5 / 10)) })

/-- class_skills/melee/vpr.py:1210-1227 `ouroboros` -/
def ouroboros (env : Env) : Py PyVal := do
  if decide (env.level < 96) then
    return .none
  let name : PyVal := (.str "Ouroboros")
  return (← newSkill {
    name := name
    is_GCD := (.bool true)
    damage_spec := (← newDamageSpec { potency := (← getPotency table env name) })
    timing_spec := (← newTimingSpec {
      base_cast_time := (.int 0)
      animation_lock := (.int 650)
      application_delay := (.int 2330)
      gcd_base_recast_time := (.int 3000) })
    has_aoe := (.bool true)
    aoe_dropoff := (.float (6 / 10)) })

/-- class_skills/melee/vpr.py:1229-1243 `first_legacy` -/
def first_legacy (env : Env) : Py PyVal := do
  if decide (env.level < 100) then
    return .none
  let name : PyVal := (.str "First Legacy")
  return (← newSkill {
    name := name
    is_GCD := (.bool false)
    damage_spec := (← newDamageSpec { potency := (← getPotency table env name) })
    timing_spec := (← newTimingSpec {
      base_cast_time := (.int 0)
      animation_lock := (.int 650)
      application_delay := (.int 1290) })
    has_aoe := (.bool true)
    aoe_dropoff := (.float (6 / 10)) })

/-- class_skills/melee/vpr.py:1245-1259 `second_legacy` -/
def second_legacy (env : Env) : Py PyVal := do
  if decide (env.level < 100) then
    return .none
  let name : PyVal := (.str "Second Legacy")
  return (← newSkill {
    name := name
    is_GCD := (.bool false)
    damage_spec := (← newDamageSpec { potency := (← getPotency table env name) })
    timing_spec := (← newTimingSpec {
      base_cast_time := (.int 0)
      animation_lock := (.int 650)
      application_delay := (.int 1070) })
    has_aoe := (.bool true)
    aoe_dropoff := (.float (6 / 10)) })

/-- class_skills/melee/vpr.py:1261-1275 `third_legacy` -/
def third_legacy (env : Env) : Py PyVal := do
  if decide (env.level < 100) then
    return .none
  let name : PyVal := (.str "Third Legacy")
  return (← newSkill {
    name := name
    is_GCD := (.bool false)
    damage_spec := (← newDamageSpec { potency := (← getPotency table env name) })
    timing_spec := (← newTimingSpec {
      base_cast_time := (.int 0)
      animation_lock := (.int 650)
      application_delay := (.int 1210) })
    has_aoe := (.bool true)
    aoe_dropoff := (.float (6 / 10)) })

/-- class_skills/melee/vpr.py:1277-1291 `fourth_legacy` -/
def fourth_legacy (env : Env) : Py PyVal := do
  if decide (env.level < 100) then
    return .none
  let name : PyVal := (.str "Fourth Legacy")
  return (← newSkill {
    name := name
    is_GCD := (.bool false)
    damage_spec := (← newDamageSpec { potency := (← getPotency table env name) })
    timing_spec := (← newTimingSpec {
      base_cast_time := (.int 0)
      animation_lock := (.int 650)
      application_delay := (.int 1070) })
    has_aoe := (.bool true)
    aoe_dropoff := (.float (6 / 10)) })

/-- class_skills/melee/vpr.py:1297-1300 `true_north` -/
def true_north (_env : Env) : Py PyVal := do
  let name : PyVal := (.str "True North")
  return (← newSkill {
    name := name
    is_GCD := (.bool false)
    timing_spec := (← instantTimingSpec) })

/-- class_skills/melee/vpr.py:1302-1305 `feint` -/
def feint (_env : Env) : Py PyVal := do
  let name : PyVal := (.str "Feint")
  return (← newSkill {
    name := name
    is_GCD := (.bool false)
    timing_spec := (← instantTimingSpec) })

/-- class_skills/melee/vpr.py:1307-1310 `bloodbath` -/
def bloodbath (_env : Env) : Py PyVal := do
  let name : PyVal := (.str "Bloodbath")
  return (← newSkill {
    name := name
    is_GCD := (.bool false)
    timing_spec := (← instantTimingSpec) })

/-- class_skills/melee/vpr.py:1312-1315 `slither` -/
def slither (_env : Env) : Py PyVal := do
  let name : PyVal := (.str "Slither")
  return (← newSkill {
    name := name
    is_GCD := (.bool false)
    timing_spec := (← instantTimingSpec) })

/-- class_skills/melee/vpr.py:1317-1320 `serpents_tail` -/
def serpents_tail (_env : Env) : Py PyVal := do
  let name : PyVal := (.str "Serpent's Tail")
  return (← newSkill {
    name := name
    is_GCD := (.bool false)
    timing_spec := (← instantTimingSpec) })

/-- class_skills/melee/vpr.py:1322-1325 `twinfang` -/
def twinfang (_env : Env) : Py PyVal := do
  let name : PyVal := (.str "Twinfang")
  return (← newSkill {
    name := name
    is_GCD := (.bool false)
    timing_spec := (← instantTimingSpec) })

/-- class_skills/melee/vpr.py:1327-1330 `twinblood` -/
def twinblood (_env : Env) : Py PyVal := do
  let name : PyVal := (.str "Twinblood")
  return (← newSkill {
    name := name
    is_GCD := (.bool false)
    timing_spec := (← instantTimingSpec) })

/-- class_skills/melee/vpr.py:1332-1335 `serpents_ire` -/
def serpents_ire (_env : Env) : Py PyVal := do
  let name : PyVal := (.str "Serpent's Ire")
  return (← newSkill {
    name := name
    is_GCD := (.bool false)
    timing_spec := (← instantTimingSpec) })

/-- class_skills/melee/vpr.py:16-1335 `VprSkills`; the methods in the order of `dir`. -/
def job (env : Env) : JobClass where
  jobClass := "VPR"
  init := do
    let _ ← attr_combo_base_potency_no_venom env
    let _ ← attr_combo_base_potency_with_venom env
  comboBreakers := get_combo_breakers env
  skillMethods := [
    auto env,
    bloodbath env,
    bloodied_maw env,
    death_rattle env,
    dread_fangs env,
    dread_maw env,
    dreadwinder env,
    feint env,
    first_generation env,
    first_legacy env,
    flanksbane_fang env,
    flanksting_strike env,
    fourth_generation env,
    fourth_legacy env,
    hindsbane_fang env,
    hindsting_strike env,
    hunters_bite env,
    hunters_coil env,
    hunters_den env,
    hunters_sting env,
    jagged_maw env,
    last_lash env,
    ouroboros env,
    pit_of_dread env,
    reaving_fangs env,
    reaving_maw env,
    reawaken env,
    second_generation env,
    second_legacy env,
    serpents_ire env,
    serpents_tail env,
    slither env,
    steel_fangs env,
    steel_maw env,
    swiftskins_bite env,
    swiftskins_coil env,
    swiftskins_den env,
    swiftskins_sting env,
    third_generation env,
    third_legacy env,
    true_north env,
    twinblood env,
    twinblood_bite env,
    twinblood_thresh env,
    twinfang env,
    twinfang_bite env,
    twinfang_thresh env,
    uncoiled_fury env,
    uncoiled_twinblood env,
    uncoiled_twinfang env,
    vicepit env,
    vicewinder env,
    writhing_snap env]

end Ama.GameData.Vpr
