import Verif.Lemmas.GameData.Floor
import Verif.Model.GameData.Vpr

/-!
# The data of VPR for a version between two listed ones

Generated by `tools/floor.py`: method by method, the data for a version is that for the latest listed
version that is not above it, under the conditions stated where the code compares with `<=`, `>`, `==` or `!=`.
-/

set_option linter.unnecessarySeqFocus false
set_option linter.unusedSimpArgs false

namespace Ama.GameData.Vpr

theorem attr_combo_base_potency_no_venom_floor (e : Env) :
    attr_combo_base_potency_no_venom e.floor = attr_combo_base_potency_no_venom e := by
  simp only [attr_combo_base_potency_no_venom, getSkillData_floor]

theorem attr_combo_base_potency_with_venom_floor (e : Env) :
    attr_combo_base_potency_with_venom e.floor = attr_combo_base_potency_with_venom e := by
  simp only [attr_combo_base_potency_with_venom, getSkillData_floor]

theorem get_combo_breakers_floor (e : Env) : get_combo_breakers e.floor = get_combo_breakers e := rfl

theorem get_venom_follow_up_floor (e : Env) (name : PyVal) (skill_allowlist : PyVal) (duration : PyVal) (expires_status_effects : PyVal) (delay_after_parent_application : PyVal) : get_venom_follow_up e.floor name skill_allowlist duration expires_status_effects delay_after_parent_application = get_venom_follow_up e name skill_allowlist duration expires_status_effects delay_after_parent_application := rfl

theorem auto_floor (e : Env) : auto e.floor = auto e := rfl

theorem steel_fangs_floor (e : Env) :
    steel_fangs e.floor = steel_fangs e := by
  simp only [steel_fangs, floor_ge, getSkillData_floor]

theorem get_hunters_instinct_follow_up_floor (e : Env) :
    get_hunters_instinct_follow_up e.floor = get_hunters_instinct_follow_up e := by
  simp only [get_hunters_instinct_follow_up, getSkillData_floor]

theorem hunters_sting_floor (e : Env) :
    hunters_sting e.floor = hunters_sting e := by
  simp only [hunters_sting, getPotency_floor, get_hunters_instinct_follow_up_floor]

theorem get_noxious_gnash_follow_up_floor (e : Env) :
    get_noxious_gnash_follow_up e.floor = get_noxious_gnash_follow_up e := by
  simp only [get_noxious_gnash_follow_up, floor_ge, getSkillData_floor]

theorem get_honed_steel_follow_up_floor (e : Env) (h6 : e.pos ≠ 6) :
    get_honed_steel_follow_up e.floor = get_honed_steel_follow_up e := by
  simp only [get_honed_steel_follow_up, floor_le (e := e) (p := .p701) h6]

theorem dread_fangs_floor (e : Env) :
    dread_fangs e.floor = dread_fangs e := by
  simp only [dread_fangs, floor_ge, getPotency_floor, get_noxious_gnash_follow_up_floor]

theorem reaving_fangs_floor (e : Env) (h6 : e.pos ≠ 6) :
    reaving_fangs e.floor = reaving_fangs e := by
  simp only [reaving_fangs, getSkillData_floor, getPotency_floor, floor_le (e := e) (p := .p701) h6,
    get_honed_steel_follow_up_floor e h6]

theorem writhing_snap_floor (e : Env) :
    writhing_snap e.floor = writhing_snap e := by
  simp only [writhing_snap, getPotency_floor]

theorem get_swift_scaled_follow_up_floor (e : Env) :
    get_swift_scaled_follow_up e.floor = get_swift_scaled_follow_up e := by
  simp only [get_swift_scaled_follow_up, getSkillData_floor]

theorem swiftskins_sting_floor (e : Env) :
    swiftskins_sting e.floor = swiftskins_sting e := by
  simp only [swiftskins_sting, getPotency_floor, get_swift_scaled_follow_up_floor]

theorem steel_maw_floor (e : Env) :
    steel_maw e.floor = steel_maw e := by
  simp only [steel_maw, getSkillData_floor]

theorem flanksting_strike_floor (e : Env) :
    flanksting_strike e.floor = flanksting_strike e := by
  simp only [flanksting_strike, getSkillData_floor, getPotency_floor, getPotencyNoPositional_floor,
    get_venom_follow_up_floor, attr_combo_base_potency_no_venom_floor,
    attr_combo_base_potency_with_venom_floor]

theorem flanksbane_fang_floor (e : Env) :
    flanksbane_fang e.floor = flanksbane_fang e := by
  simp only [flanksbane_fang, getSkillData_floor, getPotency_floor, getPotencyNoPositional_floor,
    get_venom_follow_up_floor, attr_combo_base_potency_no_venom_floor,
    attr_combo_base_potency_with_venom_floor]

theorem hindsting_strike_floor (e : Env) :
    hindsting_strike e.floor = hindsting_strike e := by
  simp only [hindsting_strike, getSkillData_floor, getPotency_floor, getPotencyNoPositional_floor,
    get_venom_follow_up_floor, attr_combo_base_potency_no_venom_floor,
    attr_combo_base_potency_with_venom_floor]

theorem hindsbane_fang_floor (e : Env) :
    hindsbane_fang e.floor = hindsbane_fang e := by
  simp only [hindsbane_fang, getSkillData_floor, getPotency_floor, getPotencyNoPositional_floor,
    get_venom_follow_up_floor, attr_combo_base_potency_no_venom_floor,
    attr_combo_base_potency_with_venom_floor]

theorem dread_maw_floor (e : Env) :
    dread_maw e.floor = dread_maw e := by
  simp only [dread_maw, floor_ge, getPotency_floor, get_noxious_gnash_follow_up_floor]

theorem reaving_maw_floor (e : Env) (h6 : e.pos ≠ 6) :
    reaving_maw e.floor = reaving_maw e := by
  simp only [reaving_maw, getSkillData_floor, getPotency_floor, floor_le (e := e) (p := .p701) h6,
    get_honed_steel_follow_up_floor e h6]

theorem hunters_bite_floor (e : Env) :
    hunters_bite e.floor = hunters_bite e := by
  simp only [hunters_bite, getPotency_floor, get_hunters_instinct_follow_up_floor]

theorem swiftskins_bite_floor (e : Env) :
    swiftskins_bite e.floor = swiftskins_bite e := by
  simp only [swiftskins_bite, getPotency_floor, get_swift_scaled_follow_up_floor]

theorem jagged_maw_floor (e : Env) :
    jagged_maw e.floor = jagged_maw e := by
  simp only [jagged_maw, getSkillData_floor, getPotency_floor, get_venom_follow_up_floor]

theorem bloodied_maw_floor (e : Env) :
    bloodied_maw e.floor = bloodied_maw e := by
  simp only [bloodied_maw, getSkillData_floor, getPotency_floor, get_venom_follow_up_floor]

theorem death_rattle_floor (e : Env) :
    death_rattle e.floor = death_rattle e := by
  simp only [death_rattle, getPotency_floor]

theorem last_lash_floor (e : Env) :
    last_lash e.floor = last_lash e := by
  simp only [last_lash, getPotency_floor]

theorem dreadwinder_floor (e : Env) :
    dreadwinder e.floor = dreadwinder e := by
  simp only [dreadwinder, floor_ge, getPotency_floor, get_noxious_gnash_follow_up_floor]

theorem vicewinder_floor (e : Env) (h6 : e.pos ≠ 6) :
    vicewinder e.floor = vicewinder e := by
  simp only [vicewinder, getPotency_floor, floor_le (e := e) (p := .p701) h6]

theorem get_hunters_venom_follow_up_floor (e : Env) :
    get_hunters_venom_follow_up e.floor = get_hunters_venom_follow_up e := by
  simp only [get_hunters_venom_follow_up, getSkillData_floor, get_venom_follow_up_floor]

theorem hunters_coil_floor (e : Env) :
    hunters_coil e.floor = hunters_coil e := by
  simp only [hunters_coil, getPotency_floor, getPotencyNoPositional_floor,
    get_hunters_instinct_follow_up_floor, get_hunters_venom_follow_up_floor]

theorem get_swiftskins_venom_follow_up_floor (e : Env) :
    get_swiftskins_venom_follow_up e.floor = get_swiftskins_venom_follow_up e := by
  simp only [get_swiftskins_venom_follow_up, getSkillData_floor, get_venom_follow_up_floor]

theorem swiftskins_coil_floor (e : Env) :
    swiftskins_coil e.floor = swiftskins_coil e := by
  simp only [swiftskins_coil, getPotency_floor, getPotencyNoPositional_floor,
    get_swift_scaled_follow_up_floor, get_swiftskins_venom_follow_up_floor]

theorem pit_of_dread_floor (e : Env) :
    pit_of_dread e.floor = pit_of_dread e := by
  simp only [pit_of_dread, floor_ge, getPotency_floor, get_noxious_gnash_follow_up_floor]

theorem vicepit_floor (e : Env) (h6 : e.pos ≠ 6) :
    vicepit e.floor = vicepit e := by
  simp only [vicepit, getPotency_floor, floor_le (e := e) (p := .p701) h6]

theorem get_fellhunters_venom_follow_up_floor (e : Env) :
    get_fellhunters_venom_follow_up e.floor = get_fellhunters_venom_follow_up e := by
  simp only [get_fellhunters_venom_follow_up, getSkillData_floor, get_venom_follow_up_floor]

theorem hunters_den_floor (e : Env) :
    hunters_den e.floor = hunters_den e := by
  simp only [hunters_den, getPotency_floor, get_hunters_instinct_follow_up_floor,
    get_fellhunters_venom_follow_up_floor]

theorem get_fellskins_venom_follow_up_floor (e : Env) :
    get_fellskins_venom_follow_up e.floor = get_fellskins_venom_follow_up e := by
  simp only [get_fellskins_venom_follow_up, getSkillData_floor, get_venom_follow_up_floor]

theorem swiftskins_den_floor (e : Env) :
    swiftskins_den e.floor = swiftskins_den e := by
  simp only [swiftskins_den, getPotency_floor, get_swift_scaled_follow_up_floor,
    get_fellskins_venom_follow_up_floor]

theorem twinfang_bite_floor (e : Env) :
    twinfang_bite e.floor = twinfang_bite e := by
  simp only [twinfang_bite, getSkillData_floor, getPotency_floor, get_swiftskins_venom_follow_up_floor]

theorem twinblood_bite_floor (e : Env) :
    twinblood_bite e.floor = twinblood_bite e := by
  simp only [twinblood_bite, getSkillData_floor, getPotency_floor, get_hunters_venom_follow_up_floor]

theorem twinfang_thresh_floor (e : Env) :
    twinfang_thresh e.floor = twinfang_thresh e := by
  simp only [twinfang_thresh, getSkillData_floor, getPotency_floor, get_fellskins_venom_follow_up_floor]

theorem twinblood_thresh_floor (e : Env) :
    twinblood_thresh e.floor = twinblood_thresh e := by
  simp only [twinblood_thresh, getSkillData_floor, getPotency_floor,
    get_fellhunters_venom_follow_up_floor]

theorem uncoiled_fury_floor (e : Env) :
    uncoiled_fury e.floor = uncoiled_fury e := by
  simp only [uncoiled_fury, getSkillData_floor, getPotency_floor, get_venom_follow_up_floor]

theorem reawaken_floor (e : Env) :
    reawaken e.floor = reawaken e := by
  simp only [reawaken, getPotency_floor]

theorem first_generation_floor (e : Env) :
    first_generation e.floor = first_generation e := by
  simp only [first_generation, getPotency_floor, getPotencyNoCombo_floor]

theorem second_generation_floor (e : Env) :
    second_generation e.floor = second_generation e := by
  simp only [second_generation, getPotency_floor, getPotencyNoCombo_floor]

theorem third_generation_floor (e : Env) :
    third_generation e.floor = third_generation e := by
  simp only [third_generation, getPotency_floor, getPotencyNoCombo_floor]

theorem fourth_generation_floor (e : Env) :
    fourth_generation e.floor = fourth_generation e := by
  simp only [fourth_generation, getPotency_floor, getPotencyNoCombo_floor]

theorem uncoiled_twinfang_floor (e : Env) :
    uncoiled_twinfang e.floor = uncoiled_twinfang e := by
  simp only [uncoiled_twinfang, getSkillData_floor, getPotency_floor, get_venom_follow_up_floor] <;> rfl

theorem uncoiled_twinblood_floor (e : Env) :
    uncoiled_twinblood e.floor = uncoiled_twinblood e := by
  simp only [uncoiled_twinblood, getSkillData_floor, getPotency_floor] <;> rfl

theorem ouroboros_floor (e : Env) :
    ouroboros e.floor = ouroboros e := by
  simp only [ouroboros, getPotency_floor] <;> rfl

theorem first_legacy_floor (e : Env) :
    first_legacy e.floor = first_legacy e := by
  simp only [first_legacy, getPotency_floor] <;> rfl

theorem second_legacy_floor (e : Env) :
    second_legacy e.floor = second_legacy e := by
  simp only [second_legacy, getPotency_floor] <;> rfl

theorem third_legacy_floor (e : Env) :
    third_legacy e.floor = third_legacy e := by
  simp only [third_legacy, getPotency_floor] <;> rfl

theorem fourth_legacy_floor (e : Env) :
    fourth_legacy e.floor = fourth_legacy e := by
  simp only [fourth_legacy, getPotency_floor] <;> rfl

theorem true_north_floor (e : Env) : true_north e.floor = true_north e := rfl

theorem feint_floor (e : Env) : feint e.floor = feint e := rfl

theorem bloodbath_floor (e : Env) : bloodbath e.floor = bloodbath e := rfl

theorem slither_floor (e : Env) : slither e.floor = slither e := rfl

theorem serpents_tail_floor (e : Env) : serpents_tail e.floor = serpents_tail e := rfl

theorem twinfang_floor (e : Env) : twinfang e.floor = twinfang e := rfl

theorem twinblood_floor (e : Env) : twinblood e.floor = twinblood e := rfl

theorem serpents_ire_floor (e : Env) : serpents_ire e.floor = serpents_ire e := rfl

theorem job_floor (e : Env) (h6 : e.pos ≠ 6) :
    job e.floor = job e := by
  simp only [job, attr_combo_base_potency_no_venom_floor, attr_combo_base_potency_with_venom_floor,
    get_combo_breakers_floor, auto_floor, bloodbath_floor, bloodied_maw_floor, death_rattle_floor,
    dread_fangs_floor, dread_maw_floor, dreadwinder_floor, feint_floor, first_generation_floor,
    first_legacy_floor, flanksbane_fang_floor, flanksting_strike_floor, fourth_generation_floor,
    fourth_legacy_floor, hindsbane_fang_floor, hindsting_strike_floor, hunters_bite_floor,
    hunters_coil_floor, hunters_den_floor, hunters_sting_floor, jagged_maw_floor, last_lash_floor,
    ouroboros_floor, pit_of_dread_floor, reaving_fangs_floor e h6, reaving_maw_floor e h6,
    reawaken_floor, second_generation_floor, second_legacy_floor, serpents_ire_floor,
    serpents_tail_floor, slither_floor, steel_fangs_floor, steel_maw_floor, swiftskins_bite_floor,
    swiftskins_coil_floor, swiftskins_den_floor, swiftskins_sting_floor, third_generation_floor,
    third_legacy_floor, true_north_floor, twinblood_floor, twinblood_bite_floor,
    twinblood_thresh_floor, twinfang_floor, twinfang_bite_floor, twinfang_thresh_floor,
    uncoiled_fury_floor, uncoiled_twinblood_floor, uncoiled_twinfang_floor, vicepit_floor e h6,
    vicewinder_floor e h6, writhing_snap_floor]

end Ama.GameData.Vpr
