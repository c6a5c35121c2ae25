import Verif.Lemmas.GameData.Floor
import Verif.Model.GameData.Blm

/-!
# The data of BLM for a version between two listed ones

Generated by `tools/floor.py`: method by method, the data for a version is that for the latest listed
version that is not above it.
-/

set_option linter.unnecessarySeqFocus false
set_option linter.unusedSimpArgs false

namespace Ama.GameData.Blm

theorem attr_blm_caster_tax_ms_floor (e : Env) : attr_blm_caster_tax_ms e.floor = attr_blm_caster_tax_ms e := rfl

theorem attr_base_animation_lock_floor (e : Env) : attr_base_animation_lock e.floor = attr_base_animation_lock e := rfl

theorem attr_blm_instant_timing_spec_floor (e : Env) :
    attr_blm_instant_timing_spec e.floor = attr_blm_instant_timing_spec e := by
  simp only [attr_blm_instant_timing_spec, attr_base_animation_lock_floor]

theorem attr_af_skill_allowlist_floor (e : Env) :
    attr_af_skill_allowlist e.floor = attr_af_skill_allowlist e := by
  simp only [attr_af_skill_allowlist, getSkillData_floor]

theorem attr_ui_skill_allowlist_floor (e : Env) :
    attr_ui_skill_allowlist e.floor = attr_ui_skill_allowlist e := by
  simp only [attr_ui_skill_allowlist, getSkillData_floor]

theorem attr_clear_umbral_ice_floor (e : Env) : attr_clear_umbral_ice e.floor = attr_clear_umbral_ice e := rfl

theorem attr_clear_astral_fire_floor (e : Env) : attr_clear_astral_fire e.floor = attr_clear_astral_fire e := rfl

theorem get_enochian_buff_follow_up_floor (e : Env) :
    get_enochian_buff_follow_up e.floor = get_enochian_buff_follow_up e := by
  simp only [get_enochian_buff_follow_up, getSkillData_floor]

theorem attr_enochian_buff_follow_up_floor (e : Env) :
    attr_enochian_buff_follow_up e.floor = attr_enochian_buff_follow_up e := by
  simp only [attr_enochian_buff_follow_up, get_enochian_buff_follow_up_floor]

theorem get_fire_job_resource_spec_floor (e : Env) : get_fire_job_resource_spec e.floor = get_fire_job_resource_spec e := rfl

theorem astral_fire_floor (e : Env) :
    astral_fire e.floor = astral_fire e := by
  simp only [astral_fire, attr_af_skill_allowlist_floor]

theorem umbral_ice_floor (e : Env) :
    umbral_ice e.floor = umbral_ice e := by
  simp only [umbral_ice, attr_ui_skill_allowlist_floor]

theorem get_status_effect_priority_floor (e : Env) : get_status_effect_priority e.floor = get_status_effect_priority e := rfl

theorem get_enochian_damage_spec_cross_floor (e : Env) (base_potency : PyVal) (is_fire_spell : PyVal) : get_enochian_damage_spec_cross e.floor base_potency is_fire_spell = get_enochian_damage_spec_cross e base_potency is_fire_spell := rfl

theorem get_enochian_timing_spec_cross_floor (e : Env) (base_cast_time : PyVal) (is_fire_spell : PyVal) (application_delay : PyVal) :
    get_enochian_timing_spec_cross e.floor base_cast_time is_fire_spell application_delay = get_enochian_timing_spec_cross e base_cast_time is_fire_spell application_delay := by
  simp only [get_enochian_timing_spec_cross, attr_base_animation_lock_floor]

theorem auto_floor (e : Env) : auto e.floor = auto e := rfl

theorem get_thunder_iii_dot_follow_up_floor (e : Env) :
    get_thunder_iii_dot_follow_up e.floor = get_thunder_iii_dot_follow_up e := by
  simp only [get_thunder_iii_dot_follow_up, getSkillData_floor, getPotency_floor]

theorem get_thunder_iv_dot_follow_up_floor (e : Env) :
    get_thunder_iv_dot_follow_up e.floor = get_thunder_iv_dot_follow_up e := by
  simp only [get_thunder_iv_dot_follow_up, getSkillData_floor, getPotency_floor]

theorem blizzard_floor (e : Env) :
    blizzard e.floor = blizzard e := by
  simp only [blizzard, getPotency_floor, get_enochian_damage_spec_cross_floor,
    get_enochian_timing_spec_cross_floor, attr_enochian_buff_follow_up_floor]

theorem get_firestart_follow_up_floor (e : Env) :
    get_firestart_follow_up e.floor = get_firestart_follow_up e := by
  simp only [get_firestart_follow_up, getSkillData_floor]

theorem firestarter_floor (e : Env) :
    firestarter e.floor = firestarter e := by
  simp only [firestarter, getSkillData_floor]

theorem get_thundercloud_follow_up_floor (e : Env) :
    get_thundercloud_follow_up e.floor = get_thundercloud_follow_up e := by
  simp only [get_thundercloud_follow_up, floor_ge]

theorem thundercloud_floor (e : Env) :
    thundercloud e.floor = thundercloud e := by
  simp only [thundercloud, floor_ge]

theorem high_fire_ii_floor (e : Env) :
    high_fire_ii e.floor = high_fire_ii e := by
  simp only [high_fire_ii, floor_ge, getPotency_floor, get_enochian_damage_spec_cross_floor,
    get_enochian_timing_spec_cross_floor, attr_clear_umbral_ice_floor,
    attr_enochian_buff_follow_up_floor]

theorem fire_floor (e : Env) :
    fire e.floor = fire e := by
  simp only [fire, floor_lt, getPotency_floor, get_firestart_follow_up_floor,
    get_fire_job_resource_spec_floor, get_enochian_damage_spec_cross_floor,
    get_enochian_timing_spec_cross_floor, attr_enochian_buff_follow_up_floor]

theorem scathe_floor (e : Env) :
    scathe e.floor = scathe e := by
  simp only [scathe, floor_ge, getPotency_floor, attr_base_animation_lock_floor]

theorem fire_iii_floor (e : Env) :
    fire_iii e.floor = fire_iii e := by
  simp only [fire_iii, getPotency_floor, get_enochian_damage_spec_cross_floor,
    get_enochian_timing_spec_cross_floor, attr_base_animation_lock_floor, attr_clear_umbral_ice_floor,
    attr_enochian_buff_follow_up_floor]

theorem blizzard_iii_floor (e : Env) :
    blizzard_iii e.floor = blizzard_iii e := by
  simp only [blizzard_iii, getPotency_floor, get_enochian_damage_spec_cross_floor,
    get_enochian_timing_spec_cross_floor, attr_clear_astral_fire_floor,
    attr_enochian_buff_follow_up_floor]

theorem freeze_floor (e : Env) :
    freeze e.floor = freeze e := by
  simp only [freeze, getPotency_floor, get_enochian_damage_spec_cross_floor,
    get_enochian_timing_spec_cross_floor]

theorem thunder_iii_floor (e : Env) :
    thunder_iii e.floor = thunder_iii e := by
  simp only [thunder_iii, floor_ge, getSkillData_floor, getPotency_floor,
    get_thunder_iii_dot_follow_up_floor, get_thundercloud_follow_up_floor,
    attr_blm_caster_tax_ms_floor, attr_base_animation_lock_floor]

theorem flare_floor (e : Env) :
    flare e.floor = flare e := by
  simp only [flare, floor_lt, getSkillData_floor, getPotency_floor,
    get_enochian_damage_spec_cross_floor, get_enochian_timing_spec_cross_floor,
    attr_clear_umbral_ice_floor, attr_enochian_buff_follow_up_floor]

theorem ley_lines_floor (e : Env) :
    ley_lines e.floor = ley_lines e := by
  simp only [ley_lines, attr_blm_instant_timing_spec_floor]

theorem blizzard_iv_floor (e : Env) :
    blizzard_iv e.floor = blizzard_iv e := by
  simp only [blizzard_iv, getPotency_floor, get_enochian_damage_spec_cross_floor,
    get_enochian_timing_spec_cross_floor]

theorem fire_iv_floor (e : Env) :
    fire_iv e.floor = fire_iv e := by
  simp only [fire_iv, getPotency_floor, get_enochian_damage_spec_cross_floor,
    get_enochian_timing_spec_cross_floor]

theorem thunder_iv_floor (e : Env) :
    thunder_iv e.floor = thunder_iv e := by
  simp only [thunder_iv, floor_ge, getSkillData_floor, getPotency_floor,
    get_thunder_iv_dot_follow_up_floor, get_thundercloud_follow_up_floor, attr_blm_caster_tax_ms_floor]

theorem foul_floor (e : Env) :
    foul e.floor = foul e := by
  simp only [foul, getPotency_floor, attr_base_animation_lock_floor]

theorem despair_floor (e : Env) :
    despair e.floor = despair e := by
  simp only [despair, getSkillData_floor, getPotency_floor, get_enochian_damage_spec_cross_floor,
    get_enochian_timing_spec_cross_floor, attr_clear_umbral_ice_floor,
    attr_enochian_buff_follow_up_floor]

theorem xenoglossys_floor (e : Env) :
    xenoglossys e.floor = xenoglossys e := by
  simp only [xenoglossys, getPotency_floor, attr_base_animation_lock_floor]

theorem high_blizzard_ii_floor (e : Env) :
    high_blizzard_ii e.floor = high_blizzard_ii e := by
  simp only [high_blizzard_ii, getPotency_floor, get_enochian_damage_spec_cross_floor,
    get_enochian_timing_spec_cross_floor, attr_clear_astral_fire_floor,
    attr_enochian_buff_follow_up_floor]

theorem paradox_floor (e : Env) :
    paradox e.floor = paradox e := by
  simp only [paradox, floor_lt, floor_ge, getPotency_floor, attr_blm_caster_tax_ms_floor,
    attr_base_animation_lock_floor, get_firestart_follow_up_floor, attr_enochian_buff_follow_up_floor]

theorem high_thunder_floor (e : Env) :
    high_thunder e.floor = high_thunder e := by
  simp only [high_thunder, getSkillData_floor, getPotency_floor, attr_blm_caster_tax_ms_floor] <;> rfl

theorem high_thunder_ii_floor (e : Env) :
    high_thunder_ii e.floor = high_thunder_ii e := by
  simp only [high_thunder_ii, getSkillData_floor, getPotency_floor, attr_blm_caster_tax_ms_floor] <;> rfl

theorem flare_star_floor (e : Env) :
    flare_star e.floor = flare_star e := by
  simp only [flare_star, getPotency_floor, get_enochian_damage_spec_cross_floor,
    get_enochian_timing_spec_cross_floor] <;> rfl

theorem swiftcast_floor (e : Env) :
    swiftcast e.floor = swiftcast e := by
  simp only [swiftcast, floor_ge, attr_blm_instant_timing_spec_floor]

theorem triplecast_floor (e : Env) :
    triplecast e.floor = triplecast e := by
  simp only [triplecast, floor_ge, attr_blm_instant_timing_spec_floor]

theorem transpose_floor (e : Env) :
    transpose e.floor = transpose e := by
  simp only [transpose, floor_ge, attr_blm_instant_timing_spec_floor, attr_clear_astral_fire_floor,
    attr_clear_umbral_ice_floor, attr_enochian_buff_follow_up_floor]

theorem sharpcast_floor (e : Env) :
    sharpcast e.floor = sharpcast e := by
  simp only [sharpcast, floor_ge, attr_blm_instant_timing_spec_floor]

theorem manafont_floor (e : Env) :
    manafont e.floor = manafont e := by
  simp only [manafont, floor_ge, attr_blm_instant_timing_spec_floor, attr_clear_umbral_ice_floor]

theorem umbral_soul_floor (e : Env) :
    umbral_soul e.floor = umbral_soul e := by
  simp only [umbral_soul, attr_blm_instant_timing_spec_floor]

theorem amplifier_floor (e : Env) :
    amplifier e.floor = amplifier e := by
  simp only [amplifier, attr_blm_instant_timing_spec_floor]

theorem job_floor (e : Env) :
    job e.floor = job e := by
  simp only [job, attr_blm_caster_tax_ms_floor, attr_base_animation_lock_floor,
    attr_blm_instant_timing_spec_floor, attr_af_skill_allowlist_floor, attr_ui_skill_allowlist_floor,
    attr_clear_umbral_ice_floor, attr_clear_astral_fire_floor, attr_enochian_buff_follow_up_floor,
    get_status_effect_priority_floor, amplifier_floor, auto_floor, blizzard_floor, blizzard_iii_floor,
    blizzard_iv_floor, despair_floor, fire_floor, fire_iii_floor, fire_iv_floor, firestarter_floor,
    flare_floor, flare_star_floor, foul_floor, freeze_floor, high_blizzard_ii_floor,
    high_fire_ii_floor, high_thunder_floor, high_thunder_ii_floor, ley_lines_floor, manafont_floor,
    paradox_floor, scathe_floor, sharpcast_floor, swiftcast_floor, thunder_iii_floor, thunder_iv_floor,
    thundercloud_floor, transpose_floor, triplecast_floor, umbral_soul_floor, xenoglossys_floor,
    astral_fire_floor, umbral_ice_floor]

end Ama.GameData.Blm
