import Verif.Lemmas.GameData.Floor
import Verif.Model.GameData.Rpr

/-!
# The data of RPR for a version between two listed ones

Generated by `tools/floor.py`: method by method, the data for a version is that for the latest listed
version that is not above it.
-/

set_option linter.unnecessarySeqFocus false
set_option linter.unusedSimpArgs false

namespace Ama.GameData.Rpr

theorem get_deaths_design_follow_up_floor (e : Env) : get_deaths_design_follow_up e.floor = get_deaths_design_follow_up e := rfl

theorem get_enhanced_harp_follow_up_floor (e : Env) :
    get_enhanced_harp_follow_up e.floor = get_enhanced_harp_follow_up e := by
  simp only [get_enhanced_harp_follow_up, getSkillData_floor]

theorem auto_floor (e : Env) : auto e.floor = auto e := rfl

theorem slice_floor (e : Env) :
    slice e.floor = slice e := by
  simp only [slice, getPotency_floor]

theorem waxing_slice_floor (e : Env) :
    waxing_slice e.floor = waxing_slice e := by
  simp only [waxing_slice, getPotency_floor, getPotencyNoCombo_floor]

theorem shadow_of_death_floor (e : Env) :
    shadow_of_death e.floor = shadow_of_death e := by
  simp only [shadow_of_death, getPotency_floor, get_deaths_design_follow_up_floor]

theorem harpe_floor (e : Env) :
    harpe e.floor = harpe e := by
  simp only [harpe, getPotency_floor]

theorem spinning_scythe_floor (e : Env) :
    spinning_scythe e.floor = spinning_scythe e := by
  simp only [spinning_scythe, getPotency_floor]

theorem infernal_slice_floor (e : Env) :
    infernal_slice e.floor = infernal_slice e := by
  simp only [infernal_slice, getPotency_floor, getPotencyNoCombo_floor]

theorem whorl_of_death_floor (e : Env) :
    whorl_of_death e.floor = whorl_of_death e := by
  simp only [whorl_of_death, getPotency_floor, get_deaths_design_follow_up_floor]

theorem nightmare_scythe_floor (e : Env) :
    nightmare_scythe e.floor = nightmare_scythe e := by
  simp only [nightmare_scythe, getPotency_floor, getPotencyNoCombo_floor]

theorem blood_stalk_floor (e : Env) :
    blood_stalk e.floor = blood_stalk e := by
  simp only [blood_stalk, getPotency_floor]

theorem grim_swathe_floor (e : Env) :
    grim_swathe e.floor = grim_swathe e := by
  simp only [grim_swathe, getPotency_floor]

theorem soul_slice_floor (e : Env) :
    soul_slice e.floor = soul_slice e := by
  simp only [soul_slice, getPotency_floor]

theorem soul_scythe_floor (e : Env) :
    soul_scythe e.floor = soul_scythe e := by
  simp only [soul_scythe, getPotency_floor]

theorem get_enhanced_gibbet_follow_up_floor (e : Env) :
    get_enhanced_gibbet_follow_up e.floor = get_enhanced_gibbet_follow_up e := by
  simp only [get_enhanced_gibbet_follow_up, getSkillData_floor]

theorem get_enhanced_gallows_follow_up_floor (e : Env) :
    get_enhanced_gallows_follow_up e.floor = get_enhanced_gallows_follow_up e := by
  simp only [get_enhanced_gallows_follow_up, getSkillData_floor]

theorem gibbet_floor (e : Env) :
    gibbet e.floor = gibbet e := by
  simp only [gibbet, getSkillData_floor, getPotency_floor, getPotencyNoPositional_floor,
    get_enhanced_gallows_follow_up_floor]

theorem gallows_floor (e : Env) :
    gallows e.floor = gallows e := by
  simp only [gallows, getSkillData_floor, getPotency_floor, getPotencyNoPositional_floor,
    get_enhanced_gibbet_follow_up_floor]

theorem guillotine_floor (e : Env) :
    guillotine e.floor = guillotine e := by
  simp only [guillotine, getPotency_floor]

theorem unveiled_gibbet_floor (e : Env) :
    unveiled_gibbet e.floor = unveiled_gibbet e := by
  simp only [unveiled_gibbet, getPotency_floor]

theorem unveiled_gallows_floor (e : Env) :
    unveiled_gallows e.floor = unveiled_gallows e := by
  simp only [unveiled_gallows, getPotency_floor]

theorem arcane_circle_floor (e : Env) :
    arcane_circle e.floor = arcane_circle e := by
  simp only [arcane_circle, getSkillData_floor]

theorem gluttony_floor (e : Env) :
    gluttony e.floor = gluttony e := by
  simp only [gluttony, getPotency_floor]

theorem get_enhanced_void_reaping_follow_up_floor (e : Env) : get_enhanced_void_reaping_follow_up e.floor = get_enhanced_void_reaping_follow_up e := rfl

theorem get_enhanced_cross_reaping_follow_up_floor (e : Env) : get_enhanced_cross_reaping_follow_up e.floor = get_enhanced_cross_reaping_follow_up e := rfl

theorem void_reaping_floor (e : Env) :
    void_reaping e.floor = void_reaping e := by
  simp only [void_reaping, getSkillData_floor, getPotency_floor,
    get_enhanced_cross_reaping_follow_up_floor]

theorem cross_reaping_floor (e : Env) :
    cross_reaping e.floor = cross_reaping e := by
  simp only [cross_reaping, getSkillData_floor, getPotency_floor,
    get_enhanced_void_reaping_follow_up_floor]

theorem grim_reaping_floor (e : Env) :
    grim_reaping e.floor = grim_reaping e := by
  simp only [grim_reaping, getPotency_floor]

theorem harvest_moon_floor (e : Env) :
    harvest_moon e.floor = harvest_moon e := by
  simp only [harvest_moon, getPotency_floor]

theorem lemures_slice_floor (e : Env) :
    lemures_slice e.floor = lemures_slice e := by
  simp only [lemures_slice, getPotency_floor]

theorem lemures_scythe_floor (e : Env) :
    lemures_scythe e.floor = lemures_scythe e := by
  simp only [lemures_scythe, getPotency_floor]

theorem plentiful_harvest_floor (e : Env) :
    plentiful_harvest e.floor = plentiful_harvest e := by
  simp only [plentiful_harvest, getSkillData_floor]

theorem communio_floor (e : Env) :
    communio e.floor = communio e := by
  simp only [communio, getPotency_floor]

theorem sacrificium_floor (e : Env) :
    sacrificium e.floor = sacrificium e := by
  simp only [sacrificium, getPotency_floor] <;> rfl

theorem executioners_gibbet_floor (e : Env) :
    executioners_gibbet e.floor = executioners_gibbet e := by
  simp only [executioners_gibbet, getSkillData_floor, getPotency_floor, getPotencyNoPositional_floor,
    get_enhanced_gallows_follow_up_floor] <;> rfl

theorem executioners_gallows_floor (e : Env) :
    executioners_gallows e.floor = executioners_gallows e := by
  simp only [executioners_gallows, getSkillData_floor, getPotency_floor, getPotencyNoPositional_floor,
    get_enhanced_gibbet_follow_up_floor] <;> rfl

theorem executioners_guillotine_floor (e : Env) :
    executioners_guillotine e.floor = executioners_guillotine e := by
  simp only [executioners_guillotine, getPotency_floor] <;> rfl

theorem perfectio_floor (e : Env) :
    perfectio e.floor = perfectio e := by
  simp only [perfectio, getPotency_floor] <;> rfl

theorem hells_ingress_floor (e : Env) :
    hells_ingress e.floor = hells_ingress e := by
  simp only [hells_ingress, get_enhanced_harp_follow_up_floor]

theorem hells_egress_floor (e : Env) :
    hells_egress e.floor = hells_egress e := by
  simp only [hells_egress, get_enhanced_harp_follow_up_floor]

theorem true_north_floor (e : Env) : true_north e.floor = true_north e := rfl

theorem enshroud_floor (e : Env) : enshroud e.floor = enshroud e := rfl

theorem soulsow_floor (e : Env) : soulsow e.floor = soulsow e := rfl

theorem job_floor (e : Env) :
    job e.floor = job e := by
  simp only [job, arcane_circle_floor, auto_floor, blood_stalk_floor, communio_floor,
    cross_reaping_floor, enshroud_floor, executioners_gallows_floor, executioners_gibbet_floor,
    executioners_guillotine_floor, gallows_floor, gibbet_floor, gluttony_floor, grim_reaping_floor,
    grim_swathe_floor, guillotine_floor, harpe_floor, harvest_moon_floor, hells_egress_floor,
    hells_ingress_floor, infernal_slice_floor, lemures_scythe_floor, lemures_slice_floor,
    nightmare_scythe_floor, perfectio_floor, plentiful_harvest_floor, sacrificium_floor,
    shadow_of_death_floor, slice_floor, soul_scythe_floor, soul_slice_floor, soulsow_floor,
    spinning_scythe_floor, true_north_floor, unveiled_gallows_floor, unveiled_gibbet_floor,
    void_reaping_floor, waxing_slice_floor, whorl_of_death_floor]

end Ama.GameData.Rpr
